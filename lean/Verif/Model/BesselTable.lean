/-! # The numbers of `bessel_table_0`, specfunc_bessel_table.c:27-end

Generated from the source text. Row `i` of the table (`x = 0.01 i`) is one natural number whose digits in base `10^20`, the
least significant first, are the 60 literals of the row: the literal `d.dddddddddddddddde-EE` is the digit
`ddddddddddddddddd0EE` (seventeen digits of the mantissa and three of the exponent). -/

namespace Libgrpp

/-- Rows from 0 on. -/
def besselRows0 : List Nat := [
  10000000000000000000,
  141983532364451992171689604046871155021319768367490376034209227336227828928462052568899394235260320128514783503347609197310811142755388171933325679255997438218934919632498784245185359672218063156911813632689437357517317735963625789511644173348847173790952331693314048186977673016530820648487739525161280467904552477891572496164381337701915321716630398105910149184591360880064641451532108317021166514112410077552462807137980396141965645091347549050417236242113056617879109667951126413310525049626831222934504784470228011820248083426155096114135662161889743931108818040725314191410755553657926101031103338877322167257050991999376256340474609511396445000018026091626804494994753860883322063937436646308416942526707731389080830183841899477540773901864226352810707317558389848771481069755010802515816240663095544465898746506212072624172015911058446687125320033220551563405059346357505151592371425301078048159936367052483900444638155160445747104112523020532567190037313075559695731250347200739125303869003115121555293893733027287309622591372190244884265096208855302173264005174095088018952432555689745650151047676543898772001194290984194145026009660037937035559280063300199114276215400399006633466223481001,
  810336337869553182004821501344263727119628205783674279130192162183260948606351889163354525654099418550856619239212842181277168584017064441771482851975347914617377849731477451354170400926131937394001662024677044133571716210022151769387311158486074381062055121552308853410266278515110736168843812581147488495705482006391442173805996756617214094560565743869917137401882426149507151331667812163081019612967546396623605567126266808283341363601221027211958410646611838520451108482062115140599656818079261114991288202246322510817219945703746373104576868230988385701011874821922911710009759056896340401190094180123552586442940905313645391869030908715143891168062257083416457060258166000801103611361123051807628142093873208423073689481410254742220701620281595519583506636456342794004704063783811532099261150601606814005366913605631332880942770130053579658458122647930501014402615043443004616737648944801392043259433660084683040403761789744992798503750784187500768791034634802719938584160317300236357712466902876652545236252930025728199909768038580226189706898282851201946422874557112374016301749303591920230131659625812043017201074683463291239302008261393781145149810056534919212092034200398026402119191980001,
  196656158408332441897800694771107743018630422711573881772182116620402167241591784392702119193218217516252999007218920171590525674522641581682106208401660746116473717299963382864161253096084269698491578520902240919515415428118979925995251150909180436149535271472879071662329995314389251230624034214140270728761683620351368031620822459711913323291703092420782129659931667934797321261825811180869969512249296908482805842119129815210596167201153331924231604042411283298118771622087109202692122330189621054797047728129006110211033211801617938098246408444873277970955338850742242202009211211589022793075088227969030185300060854483392048136468608285184471711495908079156171576304996310752759032033232985807246903560182118396069766091758877803950661200210891277494706218003171030080002059258045571452235990563526624610164328005345846145736693410050565436150081679640476596759668900832504472564412901524233041749832926325050410387248392210916777903565235604881543650032543630765518751300294167842392537580602629174951110839635023184775107152890300201047061858028155801752353277676514950015226865250326756040128318444865258733101024955561461026515007582304752535484120059705328764539345900397059110692918804001,
  457879629204488481821362192048248503917839844121990065016175114551864343357371713236090566141067316889801524665601035165244709187074668311616545971652262627215817183178034281267154442466899842459181511117229093933989414727651424499535252144670547155836638841411592549771626262713737026788895782150134842359606634021251311874250495028586612740764956690467828124866255517097490981211797480605626859811736398990926499080114718880250546417521111383844846291762910725947098056773050104473534677920593211018405243127800333309814499049130802351094242859156993370640913946462751047186008862156812614908877085947891787023635960821398141007427989007819923518834766716075273948523792143060723629819932597779106946280231535474066066566933199291550440636661469719698872306074941591039932181057805622769826243130548257640884878098805180512079189838460048744737558270093840456516461686071240604253760883383843577039416647497870956260363020699735652770403320389764880405993030127436332572511000277327609512684259802538470077377924959022182733600306094810197766216483086407401729123494545174333014946521338934648740122602962805564829000958567609646547569007102495919844263840041281257565662944700296104567016705256001,
  236646867595949691765632196426663055417313179342004860221169303124922433749281666850624564936937416315208389565409223159331542961032166521567095020886927323315314899547177976990149306930742816534781466200002494848721214312276008009107895139238154617376718001364524938957758445413384163888429768812130153178322191568781262726574976648809512347442419911521471120806521411153363091171338826016938780911321688989539622363110342686168608635171075277369165471935210479160571750695859101115574487529707710971641158514527566309422647999057929159091303483351492102260883945285834197235208549710631859220322082606470103211071440797156352188953826707681582475601083940073897407947247142070709512532399067269006797027920211280866064950874569323792070618938230654435668105880444170977377912055691820764228515680525672938311090925604944248988008585650046327443078557364870432292105974800353904015127932177990197037937934087141366750355440032833352105303229376271093510087029146881899470833760266756596751929443702428377853240003136021107836517971687160183666469988890601501610999517803189779013285991129352923090116291914840942339600911325732704825561006158566549782398850041585778755151036700295162581964040427001,
  110015355460913891712181971762172014816842548460363889828165815512375171730911621535882065391364815828413826364863994155516184665883235341529205296049633672614916109273248705589145276542616155739631424655135649548943713976809765871819190136124175834710797511321966118151018620012930474843758372074126462201993613791591236855999286088951412099412035868489165117140833786040352541131948201701011901211026300737047039269107346293232606187241044444099115186440510155551273569153735098675874272834615920957997851117003644509291975355432969170089102705893545326780851112648099827927408211682815318782599079118775400339099760761167959271616012607311095624957892151070101710012243271870678984395510447307506576367463548814376062623668517421535100594885411023215046905636640645040964584053262591778001348720501794380813740386904711663501548490313044719251056537716260424195642826638227403923076107471615908036119226974834298160335762660193098551403125932090095918306028108050951665678920254141979079274455102314497034828412264020459076911545467680181300732413080319301532518769403919543013704586344409054330111291774150186003400819377316839134449006226081614198070430041884207224818978300294232969402368749001,
  970450264377603121681649766010859249016427574670171721517161453012603512025781587312920499875438715511596207037071368151180569582706459081482760136209562293814541402061200392669142609202033676541561398789919197539078013612431463242825606132172264649978346631292337878635709600712631060404815178273123403785496385180941205133847274366354711763806427931388605114774792852551588961119186835918040202610810630489310232185104119972756940979611011319701389399706009814139669740843965095147456687838940450921495633533476226408914742688147077298086141108736113950340831310296881041210208011792686040244508077102764966523247420748661630399645464307270530521733508126069554169251212032380664195859955086132106330569892232552654060213989665213864060571436790809139453605492365337434344299052567388509601781450493323284792772750104618515500584299139043978679782740603780414893417429203601603823069065748509543035102163494799428020324232510710756338203016325500619269250027583057826056040750251915777753970467702257473915676940105020156002544043734210173788690686406364201581187789019862511013150781111156145380102369498648814161400830466490438722194006304688599373710230042176651803288031200293315546143710126001,
  253605052403144231643772376831223668716155171036517151381158793084027171734051551120231740090439815115543223324595120148211776529820782441452832512640675298714237176749586516277139478650934177660951366042971761667931013374781823415734036130906730213212951081271076742876008613912312517145000902271120142382632059550901171584008033377004111417226101601238123111183027487913958421081898911909717477910519226501388638258102189861891103993800991827422624526079809617132106091121096093156330650823742540901387436239271324108711966653196780248084100220859266658530818142956782069201207964125884879654224076488960686503041890733606091475548421907025693450659351149067176642833892186730641170261343880803606174604337315235099059456952736317158700562684604786297039505315100947618194468050811678619082739210484159868023746658904520279437783626865042937928157360766090404103455967891135303716926849660366673034655919527795176430322377725215107174402980248881929394927027250780133754574110247210009094325935702218926524652739346019449512170511653780179552322888619166101517911054928331457012291064194908274720104002311790538062100845028918285502243006394043058116050120042463219402408168400292410131896117920001,
  261707899556830991613460361951838056015844984731544684665155574805249107165771527217003737263130214989009770240103493146107800793905273771421281632550971513613914952390541413715136171121931026100971331920369832309743313021124085267600273127227670888810008341242403194827625283412124833035985883472118251089826398971121152483001877693424811224002376593352417109226689360570738451062090582058834468510318815261198446274100165156390689012190971413006557421001409411775071160814073091955090518272588890897534614752554913908657765475278639502083430032624980236130803105796956960343807721740621701984916074147353413226482400719659856607691102906961179239202123539066373874094443082350632201709118533182406012476389059097480057679272272704426040553547323233845506805217736684096454793049847422898598296820473860499830298560604416728917340250284041687748240043453220392674593217975213303698069105740664591034337796261033284710311088464425795602802832654270570129130026907073956036733200242318110541919999802154090153052089379019114192641220508420162157026202095988601435951578628012026012519322150444416730106347630243440263600863481495655907059006493808442515045100042744015051151254800291516549215959986001,
  129768486623268911581544246063283011115518067691917259889152207778611473094991492347900116415166214626061712070069488143284072896353768821403039582597156533613731915645677433256134328731454435822161313320190881366371912832869922598672533125318838581226211521223028969808641270011928169451104221929116256342307945400371132281449357659175411019848635045865602107168713626034793451041400325080952290210111342650027076145098896070752464097040966899756136623574109351748260631752028090377762992587403810872682122422196628908418506682489455993081123995040891597410788059696164636319307650776209832249718073309735685946339860701827445624704388006710416471034383602064572907734336722660623036421408455666205915485806473897324056758807553642377320543566410987925648405116048925326420775048690107355447081510462829456206258359904311034948215143151040408295913416502700381429046731905974403547158950448810599033146194175438044680304239678246653744302811447277460140548025286186176181760250236582396524955087502113823318888581865018262649641279580460164465182134941752401466980358520539093012870789312588357400109579352242057137000886222878071640092006603655940023901200043019141928900222900290634623461009067001,
  355630080479000391563847274103634563215340921041938030193150427811277715907871474394792672276702614444347496110465395141439443810028424161384274594223207920113540802988802274805132382064777153449951293508053397798739412631572518786666365123278412561924124901202404475282960231011720328773415374504114168174638701990121111360687746011625410810761819899555815105831596534744332031036274784614890766310046205315323849111097331838801167923260942322876228706995109115837825652336892088105105802525858740856784117637221985308342555024830194968080259199466013860400771531637463766202707487721313942439495072486456090772810150692609182349912830206613520357186066469063676020468485673230613257203050333612105815101645380866325055672712915078004820532874333920615038205011758706037443931047459661383070365450451713295095604672404260744558505548702040204324319177395750376501289082021096103519504071570382471032549666700090769640301449140804310872902735570369408876057025808431977973407700231690393342495625202032271954061439915018557441564994659860168615328724003540301411748732974297091011138857277752235090091388690264852093900711363399830658289005723264312795649130043288701398145107300289764182744327958001,
  597289339258401851545923125204504055515157750530472848466148553443176010651531455211595682486686014248207315407319423139437883636109386221363904467242706901913334164132162049010130293242524837644891272468128000463394312420362085328075492121164593769881410211181303036047769697411510098545829592146112765807695113451721105679750503970598010741178267734556365104291679964428157991012017457205121531509813617865302566783095896511483209518410935752628968459713709035954020704021505087218720867879027920841294102063686318408174411087382831165079415463198656204520762250433100496511607311814815323926558070600588696066034210682952906237139991306514026364685284562062642878000981779590602839391864034211505712067479709945500054492758260881305290521929981922598156304972374814855691680047259345016548151380448861027106876692204228798597442365800039887965615500052110372589928510472594303471223922003611898032183997721771174470294446682833392052102710005220372853890024208446537783956130223995325359729553502069920278260645070018110711102571381080151568477206706159001319607072194852708011212425633549637970091947431044926963700714607857093287711005852319740212942840043552793036596591000288905057888936079001,
  664983048050489391526087159661207723414954784503449174313146484632754612508181434212582499312917314035969022111254979137301586837421849121342482295258758970413120049338017890815128158852695602045311251234165255380462012293986589839361567120701285789120491381175124790165308729811436662030541941351111256634726272605931081756964484530895110511758172598410158102768805349937456431004908538223157894509730584045809441869094185857384618892180911100850644224172708863510799947240720086356638669785150130831947802162983505408010338370221240968077532825643819966990752664138557470054307212910878599534652069605820813809029920672749507373550350106412055592912263683061510047065026221520592079434705315200405681578333101738249054307489642664334130511111701481312056904838482281842752295046127288659335200550434014526969007398504112043708195681532038342786478557904700369228987167487080403423427771750099620031558671478412619880291246290571922978802625885055165263367024497801985314629990228807524744579723102014228037773998717017207957051913956560152719580651560247701331381856319291236011313845758999428020092655931779327583700718390358468319405005990515664548977670043811514668727516300288057082383243734001,
  521637486734858351504433924672713401714737054994071424943144304380751836314911412456791202463950813819478874971896501135151657200817457201321159096268420920612986932371788769869127639575037256503361244614085747730527612132628241745026734118226067564927688451151534033167690632211210190385792129978109662376610521616061074210832928701780810426167385151736403101158873830933121020989418974715563037709654495655442445621093307512140465557680901691322222126111108790606855126039212085472451721622284310822396014220341380807911808974473997535076565146174412673990742623904761604744907111807627941838798068514477841370595060662168168424832592006388275943203168329061346800516466586020581312896497074966905547827290622533126053167396830075362990505619798551249237704818063805597274042045554822506000539960431624855402807178104045264383900705973038119628925164411400352990768393494185003370497879850186018031156105439008091030283233683163047450502662365450627448067024111370109803605970211829714169367011201927446826241603207017372510938992023000154523621584594122301348471099230041238011450134014780514420093537251969982055900722743978290032444005113755263969862090034064962396752649200287220092337240906001,
  302594641186659881482400587904581734914518724615915201645142143555628742003091391081454275651348713680027759953828517134581536137118762751314148299114223171712829038151953175919125199395724908386051221342600784864994311988611851196814570117573024647006852351143629164958895184011122500880047614847108136505701872025971058099360811953589710346976429215032683100266200575487933150971472981215342817609479541251829087655092418918732614410490892150457448212490108610752329132935707083523282168260319790812476879682094645107811393698865852189075508921026221080080732205335840656879407092624614228615150068376675636532209000651481600099488112306256301180456184773060206439143272776920577294239363485242505524800620274993103052810160889889138340502538528922272908604776156677829077137045218318348305610170425967444343697840504015515573611962693037382723449872756670358930368986100441103319647194492870855030406050949888316820287850514836452392002614131332756564194023235530063124239620213611602281232574301950564787237887285017640523421036051430157259771086280960401372604116097019973011629308270551702540094615653358540122200727700213233946233005129313818292001240034313230631056769200286393926439427382001,
  134964187165734601461003797926692490314373402858353575478141527584048214250281383726069680798980513525849661168947738132176101189320424441291177679288546456212677285379412050489124497525807644363531213140639389292985811819432755973831115115117811397155290041126995071138851320411040658968805970454107231248584591070851041286324317684712110169944116022690812099371579402694862780961927575145891202509397583863340144811091481822252817110850882318779350068680408510869326385672216082495915335125645280802200635168946435707794902887576150155075397408042360297780721614479662377466806963570534114155118067242364275789878940648937246240285900106231839182095294302059109448082177198160563625499561301787005411556389299731618051353918047803842170491039645821813085904629240392656540826044785845949102753250422013759484968461703949086173292055364037113513789497363000342483163231428106603251216376786099678030992342131862995350281798671330378465402530353571042268464023474292534248748470216818258715536179701989494388566754883017106281404681737000141129329419132021801210588526118409528010860430680062686790095916519778042812400733289028058291434005145698662952805510034556412120081001400285578425914471579001,
  477847045841838831453344936034433372314223021078139334263139155731157200864561361035156464678267413367589783718973437131433370824883999971282727693715601196912516847563345207530122102076685978570081196064572896878390611735317320711448373114201517083457906831111126128409879197410861606049822239562106329774686941574471031726473639299107210088355157197641252098441777512461845740952156922572829435209210277145848291494089477587169872589430872163199223039341108495435737427140770082409814447445180860791711587529962438907669470727207040518074273798107050572060711046882062266084106838796491399732520066139211986610514290634831513625915130406116199920192996168058524119896581148990561634037053967304705349021635738915710051141299289990399230483906558803723248404610341032250322110043261571192890480750416308585121210566403914472898025734781036315004677380525080346485535145638126903212589883228563159029229586709114826700273916605054320505902562207199671005041023914850925918264150211237801695206734201815291406379950288016170916331675219990141709316230815999301215083911199928511010115364649397055640087466279822694178300739538900232144160005162881899048232330034794597979677105900284773434481585375001,
  137893463978366681439116310631602428514159256156998879744138378581914679461441352376659056658987313214656102040921882129887510778025992531275275773169923221112430775432242296609121176104389852680891189881443761610446911654348116793247329113292876950863542211101545744897702596710779863779258251719105403757318661614771021996363617538131809996491311938328381097455655413850168410942101087390773636109194549388240227464089414968860586167060861775154025224094808373965166019864495081299971615123476000781183228767281423007545357402717403009073168831515565767440706096738975055429706821338755244209572065723152802237188590632370355523866029306075061981408559836058229358424659456660556753406454732077805319134880980165552050520900735644294690481360148833507750004534004241738429370043812337154128592870411850357521979088603840091891980034396036824129616498148750341602514346193935803129380253809838669029506009285201794380278152665619678117602512229504438802384022169862380982319440202170586052040691801825325202564284576016267343288483524340142525162087703371401221045690830412941010152021907618303770089292332256868274300746476863475103173005180836281281303390035027877721939270900283978798313602487001,
  331582828461346311422076760816496736813912788507659868008136774043329858090871344603533645032095813126894405541099441128154289418457566471258688957302279023512348018076223065684120260309387368138991171383754703080361411472101163259364102112368096796184087991091840491191036766010690087568500174749104431473879097291071012021123495054687409892546612563225324096414026340485292530931808650636781218209077106046436487123088320600633307609720851299283961377588508251287845391853863080197054600000031730777363670551004468207526741948002984646072943012898512641430703226123500017564506710697240643453354064343440952044897300621066485232537955905931994900417090724057926178834820740970552583583481505642405269349745945565214050178851928390465490474424301262562723904510478787105366417042237155921949028900405117679945718520003810504948623449437035204575169820803200333768595019869450103165456590833641319029106801364165697760261630191541225168402423166947809999312022304844562573297910203690455321681180101840792291474733505016407959819300552100143650574727182843801228824406391741770010197256128427610220081142297408644818800654128550232860469005199535204282982060035256339283522813000283194365996748454001,
  676960570399333811414027926583276877713823563438208226772135135490172489962211327655218309121079113042486597105794472127231552719748410651241238811299313707812165037824766689424119334946036359749651161691483987399212711383728792322297402111406086334247129651081928918460553098510589695114502053339103408114699902803171001816119384078924509779001601322133090095335758621738449890921393406180374698408956433286063797016087222912873358178650848582202057575942208232183480628783118079117470562515264280764170237152772508607414387435647627667071481983264432679740691566459996841856206649343971883782927064150500680705534810614439819424785160605912653635861318403056347979426005680920549221581325509159405223515380359474359049576136040388447220471353943210293210504430464298367637618042654995954336312000401342772170687807103726184712324366570035484430605722488490338477797447266786403113988850218595921028216835656185684030263144256903194605302442449636549689022022530651899440144560206102921339927161201864085980588229582016608877844801580380145176102540619314601238826857833092879010252426336940509870081388733121751135000662518233112495087005218952689205908050035480069053458951800282419988491090168001,
  119232989235163021396756556749926632113737643792554009048134206145253927629211311109261559323165612858632602852335518126304332238352253051231550651077721765512077532858218326643118380281760007632041151828981932370148011286223814236352699110398273732835561391071801723128066107210479790993945231857102345762775485799430991465383551396354709660709092892053016094245728746137099410919712196865940147508937461576497372430086140927854233611460835167392116808919008118455112773600359078641540039998225240762169034780821058607371268927195589055071227383984373088780687038146975713276306621114668311124209063613337879565345610611723208490589996605846773415225322317056122503524989096690533091802404092428405175087854848923158049175208086449891470463921398927447659004484031729097600013042172068890503537140393359524274893393803762392885794068048035109933682113823330321832290428116182603028794234635789744028425076072289748560265870386083490506702475480643262743712022898637790322069510209842978224245769301898438768620360968016890734907775984790147211695545872745901251521018391025967010319011754614190820081671529162924910100671668865300814703005239063370585674900035699151900474722800281655519091653161001,
  183679624658268961389935431275429521013652838613644408898133276202837593446761301418683495136796812771579307093830476125354644349284746031221724868311270156011982323614954970421117385425922157490941141769463602266340411179626247527907483109351081133563921471061516040130287141410364087502043271792101265090729037300000981072418903492009009542409558092458472093163856183230674900906181889322351735008822760756361205510085817324251223520880832860657640038684008097523236871024507078323602692093312590751044363894988467807232755373036421303070997560440657235550682947370420951230506584402968705862290063234029360600311930606276326346340708105816261625017606978055406546901766520620539794247067898178505122705252022483907048505717680202391120461080419567502585304322099996871142166041431965288495272080398050483194653329603714271743083083033034240032820516863830323818846680199116703057285100531191944028807237332315415610261064142859516306302313060742331396074021148428167921732350191551879635695970101714814880804231664015127962216651085020139889470956573348301267441007289210689010398613937782174280081993744098983763700681602119988568542005259842483464434690035913671199826918400280900813390195137001,
  250455325508743421371295838836162423413465919008642718346132329596339052427691291619327735941053212678150494243929022124370367005092442701211723019534392528511878659957806663991116352261534066768611131546895472115069411066584113887356596108280812809811715041051159885655459777710246900005142270358100185562049796377340977180491435604092509527161174905421788092100378973134398060893622398800372745908712757243980285845084438187219982531800821466987363272455907947836982641756560077151831890154677750744687032272192256407214061248648466917069409614973748482460671157621595755228806431709175063921333062840994045302566750602157364260168604505753465955267788959055127855528656798950522946289561090202605065332047083808430048139188611815935560452844354356111855404355651803201350052041104047519904706290381854815789234922303631452264727443372034505989763338503130327700158747363620803011048559844676366027148923071978298350251877836175759599702322045653033115096021239645441765182390192396674874182154701721885080088254730015180813758782150470131336668372234168501187192105652019653010492958611826899510082358500064576474700692338428822870790005281265850771716690036123708859658737200280155729237624795001,
  305433519392722861361514447258484313313373829609284629646131353768392269442081281665666896562886112577037447734425708123349880074127413151201559889700896157911768245524294281040115292888601652656951121232579689840694210950844205094530299107205496561503416471048134289737048664610231520578227625084099119516339208718810964432095766234883109416066466668940663091569025126620747960891967894629363422008666417012766142098084218624634916513840817014273453917584107921919823168127352076666734968970661810741972446203028041707156708495072025163069158313187855606640664287705546251083906411255385372096959061286078665913010660597032879757548564305716703375502843755054382792721486593370528453506299917304105017964083680045750047366775161973900780457182859896159026704313468229080460137040241312953884807240384122564311156260903666994083185828087034103286667475796100311506330894771878502920713082669788099027267559047793710610253233212291667367302336376313871735837021378952268286831470193631989667554187401731783699113782008015251657271214116370131782890174757795601111145580164948362009603897214618845450082768976791686202800610389701940969447004303309870957444190036329345346887724200279420126707053995001,
  336186133060340001351600252939332534213274892173746895632130344505599488659071271557172798906114912469138816777030955122301446798320653721191290199210694076511654188668295949544114223258603578522721119019701773240620010935718242280636426106138587682019046651035266367634966054710119591026189755740098713118619674743760962538721877068277809388348234440595729091300386535819902660889972921337455201008632312565519890679083102108704334988300803144980406083159607894350433269538126076275506410127457670737824476398053061207121595830365036572068578776078259378330661504839399304748106337922531638557928061925324820374806810592183804498616182705649791667893269335054109543853169691090512322379478865345604947377636807384735047928624905219529530451745862199449523304231426448214996625040540552367919936690388865373098369110503613830522585823730033204700599643289550312865946700231911702937832543449057687027469152198235317560255442543824964172402358784164831595437021587896073754203760195409231720186991201745443425410308293015345424125435544940132349338487215808001114099485164549209009733408162405280040083228405863099688600611629595188782926004325951505872268400036530659712633424300278693868057473315001,
  336676669246489651341540950451277708613169343106984166100129306711437226570621261333022026872332912356910093243294510121238585954695838441189818786584114286311639653030560262397113157087987559697821106102303785157282610823235852269932606105866882129297424241033167477169823629110011329908872582065097396549978017541850951357432408507381809245422173296186569090148496923977633800874740524149151603808514768704500050129082448746146487210770801328993740993546707738336806659421871075107639286152887070722939418843289343307078008730310924866068201025436758534350655025713927693667306312177892465617572060285717118176494000586483702537545096105614214556664813196053300699028535124200516129776188782642204912024092453948332046226614026023676650444096604557506385204270905037327870710040117270119877574530371849330487722157103527741130017031123033394796112778012400315314840467927259202967461538515589179027804402261475165370258972853685685076902393187678450882892021896125098256884480197928192361364639301764044361092773911015468095766832346210133061266611360881701117665834484750340009883597850898652250083740065183404313800612955215459523910004349168268889924830036727729617192979000277976817698039536001,
  308968456782176851331361756759380697413059009768541620329128251339264804401391251051907268491571612243245327932807159120174584042450823201176918744186897598411526906401977533116112102643632751674631093839659094520177110714078852656873401104505799657331953461021779679539835456609961300578838434179097206607434283151230946810454504727160509221945004455999560089690868061847083980872123801542534379408463714737144093225082186426725075000460795316677726135305207714768735665989803074399308169869302660721050047363577165006926834943044030740067665914642677361730651603154678425581006237407608411239574060845150888245159990581846848607847834805538989871316564749053794256587897582270511559135255003608504829451126851100486046534499004576225540449304536442780586304215508095236972212039246990080532666910373750745192744719803554179900462673497033742502810088564100319625578226078601002911765338112461717026135093137239823540241451118016327377502214512531094646173020134389799093553700181144947117589367001689064881459082381015626867364238634620133947833312539327501121938675965527534009105670140389369080074307273661237513400614368145884830638004372938213269052810036920631354572640000277268842152964878001,
  261482623069710071321111307198851952212946437026577508207127190724613321964591247697146903234440112230513880233864126119118786946339375601164539388820420660011417022826863523816111626201384725589221092258814874872739610679865866420099427104276680438913076231019387451900417229709931180027635396126096101336028560227450933221069230692007609110008423588535869088303830365721212420869006500210971820408426054822297819922081735127207045844280792021625874198369407654151428186091903074141182530825328230713580039754499007506988223820061176620067211110578043284280644900869499824873106211027167485184013059240239621082437210575062302287340494105510305641324564224052202437302606227500503831951998602551904869798292919001088046122150844560250500432050458974839980904132955026461231000039506115553815796030377411307302567340303510323398429844038032136423747701670150301705400080255174902820100722326198733026222560765469431180242305294649585229802222231852585797974020198521736748263380181630936584672306701612234009602409788014830328030964845770135042500731818231301127021700057907320009125508318133316450074933386096671793300615869863285401228004397239920744180820037109439876583574500276569810026997343001,
  205242900822791811318422085465311497412933978963844329950126134745009177441161235250442957257243012120096657788304142118755362388003354001162787046838601198711310091107193243142110358411077013750221081248269359327496010542613691712257044103142536699858632861004669348298715894109814974259494650834095469886605214928370931442080762677723009043262892766936910088126806472604543320853629331961574522208310137226423284204080276155659483496800787332510261998458107618963664764276181073477368548990318130711168748859468646006827808639886940901066642487160738609080641440085237881596306131285252827347159059658083512048302050571338890844247648505426316788470448585052499124894382467430509122200892805663604816042990350173305045271080338462441890434393531432570664004168178198550170735039101096205174789250361429359354807639703419223429871533802032245278743678634440302960452933868440002833690365483181124026360167994177136750243602016845426200102233539620585633985020289170680389436840182293758033777252101616612863675535732014108865837523502870126383451761883239301133028740524527723009148123705834467270075621788267773626500617461741477467100004422052490352343210037294228816509279500275879591971482407001,
  150178561433297371305957120170983044112823232918845395308125890601179526990911233354621009137178812012412186793925516117450979474800302691151608505872307873711256298156510250397110193291945857731931076507551808700153910521475114260656370102694368535313031251002198855170272193209768165204646973309095206769986284322590926134244424972886009017789515602407651087504042409645975170851394535122869467008237652952359885256080991541690828207480782544994659411425007563625858026976427073154825466193635530703664266325774067206884279673747465428066188228268968998650634078363440668717106185647514536732778059174154024588130690563425114797747773405465078922697453566052119314783393462590492107959585540536604735836506102023068045585350679262232260439170852340169329004113756863860933244038197190886192383550362695079679934516703435038007748010653032432162379688930610305042244809781671202855469014531395294026573230239272515740245541780336446298402249881755330409431020415736712223442850183187813611266365801622318852645986809014141384611560695790128014026540370693101140084271163009537009173778648638444950076375892210525952100619145054496441690004447355527471376360037475070512352405300275198060650995602001,
  102911012211715911293950481350362338912714909984136573296124553116265225198391222016212909030828411972193983084788407117253845376091681081148761831949405629211229677426577233873109986065193269074251073212693694206466810410259991371888363101321041652394717040999838475818461506909729515748497036910094866439875001740550922487550447205107208969812766087244113087191424588112245640845125308784803630708213392127281655663079341288368938074290778477296633605632607520509929918059976072482984246334820490701106210235406441906724622581772325192065532176539117124840631115878656214452906022678066157671555058446256976727841070568493504724836617905415617535589740832051277093802354965410494737566344650468604777943378543563527045123205561715848260421868033233909147004027117843515588621038376169412967923520364975415027365755803462597692683569816032747183505534816460308436568781352179202889816107249449578026898245438182309090248403839356971513602273203712337682142020590436557245844940184381390365076420001629686290709638542014181992047285306370129983177673749051401148323897626094908009202748434724877370077199131686451807600620920979739622890004473129133096084150037652036029668873900274525090710536379001,
  663191567674987351292466261181121237512690173337626312899124324062898355743071211144356127152480511839695177223500022116135212841773674021134521219091984451211114835385358415753108477518487443098851061507182561377639710346628938011108159101141345475528732980984196240433697271009612195465105908224093346812735189698800919645851152114556808926225004632546647086696611331403172610841806861865831610308145736887590194038079112914748100157400762717056863047627507463682149375159722072145277620318946340693223410882975995806769506249940373085065145531934223539180622956186920165578106058201385310102060058110949346934302270552045686785486508205336439905359947771051626331330241957040491037397705618601804616534152264626705044253189580529152550423718887305544574804052299384630025822038702810169839028020369005278294908847703410975885732089998031126917684055585470291388271928215286802714317823436560707025138717797260963930231257273215911851002110609629937228855019829003066167595120185959520501073313101639117643318955292014232320602411307930121234594376743262001057894843470081567009235321261034880590078094957832421031200622790601029787618004499353893309659270037825195183996148900273860558743273663001,
  403442315359381221281454848443127072912551581393698638840123179754796525517771206155291583631130311820704342354283053115683876857296689941132217439605274047011070555580408304235108220221150229160891056740172426230484010320220737499841685100594373872743529920981711096521059783209548222405421921194093132978647260000710903586442042447865708894552983632825388086243549150344774660836125724698018870908115036113262469383078359961564432298650768399253531219590107419089572532518047071422292882548627810699085886247529129006718998184446807088064385729800412330990627597898171784315306014505464057752295057268138903208138540554794143627149718205382810616767072689051138022488755414940482216807630021916004634261134507044432044508748104696050730427246148950955493704098816209539530923038128767761609551890351599940702873669403318909677802486725031212033599010667830292249030298406318402722492423320053305025211314951794393730231857235106668782302115197673113171624019115152459572063770178027297252636971501651094315944556128014294259667804819420121516394080335787801068956429618407187009271798180329031480079066834987262891200624754911601477137004526010868985256430037994616562883337400273204343258833460001,
  232479241082242901278136838762116539012528000530572406815122947084906199580771203147692541723298211710276385065293149114329451963021057161121036814983539569010932019615708332072107970016373431659521052881551246574462410283904962196041599100239378803110541600976688609285992036209518295553014016614092489681783984436550901281832377159333408732800318156155156085820020772227650820832001848214873890108047691909845709007078110815557077950540752509694131616372507355362008117696621071118867997711539200682482298843631434706650377253447791510064992753052694915820621897960625052551605935169086687849987057630993770182382650551094994946756116305218357899218799191050296976966724160400484629530413221746704669445925967993437044100088464013697890411383645271997673603918313953014021097037231631477512398720352793386250709066003332044099778790876031348743137337584130293590323325355271502734850743236292200025317792679799447020232710933129251176802121531176306145576019158344582170598100171071369838211224901566188677406557452014369985040138112830121850587087464628901081680546480394487009312493030545548770071011823668994521000526814817011733044004553081585675603560038160367547530271400272556324652119175001,
  127295229459072531264328074622239543212414468262461001640121475390094650390331191534845345276579311648676999197437564114151595618060222161114634543286268847810913903781454424605106409173060202067401041180770448935992110133399344728678246099925650790185000620972512514115561158909466762015007129533092173583751532652320894414053586702452308710972249642126194084266473333933794350826319334498640682808014625012027330946077330113733665683010757262648390765295607315563148093945000070324610065750672410686585102679566007606612982384178353016063248526510802580290614615622167318271605983083684276836946057144807608218940290542441125622232127605239756922495291103050624776050467939700489461292047739469304613787078902756550043193028565930639420412592235756143328803933330675721787796037409517081225240270354797533401110029103353462324497466883031565221120021517840295652745823460151502753302969975253097025472168547239047770233912786706823288502130189076280966334019215675387016827760171417597291159106001585077405008248060014461990529773891020122244804775808981801096252118016219455009357732347394967390071125264184421488700528971137977006322004580548023725080410038322514334041948600271916385172655795001,
  664224443512451741262195650561265858212371359307465583869121227955538943398651187155342442808592511622062533820865437113668011651585312761111985501138079056410857911117872290747106165692128302414331034648642621824498110112783932902145675098344460618505991320969090060827681573209423483001598795902091593607186030390530891467552359576731408635466442296957042084837416785312859560821930746388135833507943442631149841564077953343713252071790752039139718198081607242483030806173264070861481849411251670681699076130480774706532566487316064233063606115504699167410611094407783305256705819152742323346699056324543522334541160545319099254572657105284222316965957095050128678303352800060471894514799455412004526840246441985199043365344521719459860414770044102690703403959629204728850952037712285423591191330358112735838502523703387895094438013262031903447375749077080298784395104060402902780532656260977908025693563495087238990235587844592543146102141915770079024484019291137615105817490171860465031987958401510855624062747487013573121760925982910122707493877890082001011286955708817937008407855261095103340071247353104472586900531224613137924171004608392608563565300038481121954306133900271284408894448370001,
  331160998963120241251065095501361116312233680378095931551120104683321339612921173197118899668978811595914613823282730113282562464868570181108171496925677884510823189665729929131105645558325600358221031762222943331572310047152016204224436098123616507406991160953173984504357870009379779765598934056091196218273160261010884719924728755662808611098397607509442083254967908205351150815719661357231248507912521675776982017076267360418683405750745564112308277296307211278873390710494069222534687766866980674270373013449457906579638911273367521063144215271868030360602533591171728023105843140967509168811056711268313765581590541134227749404517905117473949569950940049259759241290278120473721050357978061004551292751175353753043679319590933940350418629707731267211503910496269803564565036121992305803211390341351911594571459603214251098892865304030142524508044598720281348347316816213902612027225638306143024100782130713030420227900342697368917202157661227626303947019389681892793892270172422923513427484001513755624868110967013706612218011094890123247972239835084001013174521148538561008463213378118581540071378438305980907100533575901753563639004636598201211053750038636254296500077400270660281686346693001,
  158139433618922841244952310873839782312215248062672045574119461459480543832001171372250019153541811440084606755807672112114980902154835831093237660224229765610789462813899580896105242494549019614401026445339318335232510016792047560738178097428645554126582170951071630677364016509226227179433673478090628082644850006760881471061895380765508533680203055836059083753387673710023760811645590967517054607835077824011063560076729265955087049300741477758197342505507129167009476662412069560328380686278380671046958509870680306419011122744453560062335206581132043190605733986893749233505895066818988495990056152612996047374280532369612637028219505135545715685383765049514501159993766990477176292688648863704596318546885571574043124207407803030930401536345836110689103818194811185915135036205904016351611350342221777914010824203222804516578695659030222066194992755710282045574577993799602617766420944527664024144957047661663480221106428817416877402078629174837018014019517407845756859900173132465358171469201517316166847299905013866121588900812490123876486093346259101015310580005413714008524170648794540760071518867146616316900536025586326844829004665148088956763180038787974125233637100270043891182906681001,
  724920976350543551242211961728719044112166359576782547645119195677887089753821165669707703459396311416137056064656134111451015698181425831091237418180784592510633315555882975672104879884747501421621022278709200110846309957845036502945897097143873266934475830943504663065235272309283574173365202765090195009909181871610874450309706785309408599278089711994872083216379774040977700804605104725628465407895646646560793130076193750376343255340733825423589833911007173567775769800145069137707610838856920662507058277919061606444357023531599460062762055987664103580601270137669797036805720518370568093650055320941061544316630534855467396812007105170967732902483257049100087555714488560461360235186416977704417788691774856087042223512550292363720402693790672492388103831084435192722767036342752761826488970343603609109707324403236039518624691499030341949417915093240283069137222629390302625973042147197080024206483077670459430221535646718227452402010633465187735993018681785948501052970174021852273576265501521662945486434138013105577645251517420114604268779871196601017719283840952835008591103221576415000071668986143086804600538574175162622338004694025976241533900038936343101334877400269435126755740573001,
  319660940505399301239510018651937798012127817124217858544118799751831282084951162259326740496108911362697116800598303111170851902608370711084570351091890720510611997342468115752103308936138905072381017800757480777761209919307183701063859096468207005508279190941112010945265864609125854722684436861089588206061180391010871308784340849054708428466647619528114082604929349758380900801255256867396259407725419556494124006075502048793327623180739664693467121690107118121802299646488068330732556662015880665870684098773775806410127260802941422061169637489133367590592756710471025252705743419886293539070055662180833081181190539767601486810360305113919494299537837048191402814220131990462536226483359745304432338801690978954042396175682979325680404655387663023988503852377072965849636036563100088259514070345772299675389677303256285552835931941030520699086729124240284556679864408195102637597815872234921024291428639808464700222113233616770091102014267241199596203018891913898336439000175129931639554485101526941060246644413013128021335487956520115443600864262815101020426305374534360008664399284758792540071829140663624133300541222104860018865004723215975713918480039081421801284439400268833879485347305001,
  135852996586892371223943096421055144612011252386615519797117315619665239049461158698898419478990111323550991828498583110626120432875576661081634045168496382410541848124338023176103105132287869958371002589886012725751409862537323337476117096147956745099065890933428328582301694909177766005946489404089172606026892741660863746891520506925308479508936373464631082164839346690166680793337071161444625107765929151826885082075127037556444915650722385893208727071707043645658340084030068777129483036023120661345804457745111406322649681418364166061370142398295894390595868337689310069205790175719576796258055134169743805605750521930825513410000005026844525664357562048360128798874564770464655591942903457804457914623016787834042692196928559088590407935519546785571203887104087726688176036913610031353417340349136971354411441903286921790447154048030784507527407372970286697884695772289802653917648724172996024407737005785826550222884532632045527002018999780068894261018115881162819578110166502550575202730001533317334964881336013154462431440567910116407871573715156101023458878829906830008744458896398319580071999674634317507000543969742740511923004752702599472558630039223269736305440800268240042133414724001,
  557444660078056611221579445885977275411943999407125455593117120476146575109641143241426038213649011285667464342826418110222330708410992321075664225143649151610514160785189831294102347282062928148941008351448359219293509819685904128794124095454658994422890040931028415030432094709022772501761419373088493414488981057440861045591570580668808321659175947945689081438350921528892630798662865755306640107716707393736155757074314266783141066070725761724764856907307010289108489741900067178840266427421910653023355014024646706349671192204497729061792404013955223690591226389216599097905618396630653000436054267201423376219950523753727770877239005050946120333281999048667189113070687250468419800649952484604410224710835483944041119296712881295970391335089272208572303714305720883649223035146476683749130820331430034493807495203113280356495049943029117007917087044730279751987792903230002676634462021662713024565732834799725000223907016870618318002025122194353751481018149575941321988780168193575672782379601540982835958044108013185480479376451230117511641496452162401026845839106695383008831693803166406910072180930258870307100546817389213251755004782470750479764830039361945371114816000267653509115585753001,
  221210029893956591216121937577684941711916657586246986589116445499707612800281141170748447359420311130222091466427531109766106584191589761071906388466475190010446552112380978386102111510454649879780992619245603190953009760304676666384737095136038750330238460923005567579414494309065005496407398174088137572777034398810852847501553417685408357613616459709550081113890228875397880782198403891909023007641412933145226155074760864244148888500721362519245478829306923765631424921383067403476670313213570656662294305671959906310691061781120663060166588322604790440582518302484876271605636897725545366780054523458033784703120527182700138487426905095217771299822342048121797355292934470451501318434172585204317807552890483597041202938290308457140392218340783551575803723217223629373053035232194419701566090332214178964739598703120084410229044544029172841485620960850271407050145668250202510800020230449763023778746814651642690225253093403162031702032992327441489504018191868388151993950161026602697110661001450155597627940540013221720417230378540118770706473521941901030617659740055396008926527248835073790072373247751366053900549765280079056722004812505714154283280039497506142342038200267074176474680369001,
  850249756018500451212299570030638986411861148507882656321116159822263354245981134104587457378293111110354914544285866108256523578525447951066238290572377930610414887086298571314101348499394825309950997999794070262145809717999885157484653094396823649856800000928567963348032486909018109955718354884087374555379411142180857576414910373469908314981013128163317080289413511845338150785459541056304703807610050808176254593073180463151796536530713158205664521151506953834855731310305067893200779417021500651441355092551378806222603961697607844060344211103037227050585085162789030554505672813727499422423054100951389196079240511353739168856743904917538085110445232047219239601272253890452641016032539618804330613969136812842041340954702820286590393642322283453522303737254432900530105035364113835659833320333393251467522908703130080188236855097029252980969960956690272012649426571796302515097400508988086023106388175534863550217013457673030542602043047765447513630018244659710983057770161279333512338640401461083565423624351013263897874953248060111020216261609967400934806489615107856008102939377307161450062576965081640547100552813588774500164004842793150130640050039630008476621147700266501941854365754001,
  316993197793421881208382826896743189411821795666924730076115557008759792220941131398732681367391311034502629815822100108835744353976726141061987248855418921210346369975704128821101106137709416083520982382248292425579609652410523810456919094112976178017499480912385105057559911508949293300951351680087996843936955687140851971585079724421408238118308385275772080720032207572673140781328097523386870607523906475453171238073419704738930906990717181853486461159106911970175515507527066194190029105053150643064006827634881906246983379924025884060699560963381550750581010523930486607905514148034587775906053191794574095822650512514781451824441504931855816335517208047389374014137506300454586279169116209804351981724323458407041566069083202682590395912796908471254003759133629775544531035565113812490955010335149406072326455303144633837098287541029367040821313309570272855208281918944802520941864475618744023144294729581526020219301087870590348602055820956696500247018310209436970373890161586073109637765401474047766060126088013312804730675940610111182447237991932300939446188406132011008114073900119291610062792417732867742700555962428557474115004873319084182380860039759507808362651000265936704473266761001,
  114788157600974351192969563367095319511775531346566391697115188831335979346291124638758349969641411011193714414958371107265247002069319981056169987854843548510314083933176536260100315363804158123000986924433061064468609614902899560442903093314263719511965650916490378018916638608913122165475877058086259597155226891190845022771833653305608294998498042821305080175545725677047000773167550483540410707555778187884816143073957961423961461160711603599900905982706826146608519673656066414951345115569780646404945271129858106296078328580398993060139946579181939220571977602088508155705527085949808403520053359203023480149210514607440073699997904957095784247821715047682713059972518370457866612735786711304387223620505626321041929199841078594470399494870612442873103792893895815786660035868450931331956530337741469848656032503165642885400092701029528074536394884370274018614857945511502528834474291494792023194359469417348730211225598043243591801971956712398196036018391191648924954810161956677811748756201489365714918640094013369314925053818770111365753162782864500944572360713685747008126101942550607540063019938470977201800559211854635582775004904069900316916210039886058597209485000265378365099509339001,
  404233571836897411191023500702435411111625479038741006527114623433523350800981121498918843690667510935400621656856129107821008129741057591051869139015138532310241758181984628874100915144807223507340981966629535406969009541425664933166779093854974878745817110911728182138023500408834196799408109695086662125525680525330841253846362449764908123210158621936213079419770726307151800777413204502329533807512776367955592100072214759129904880260703518522019568018106856148775563129099066872133188647520900641317533944392030106119343391742348231059275759398049514490573813887236729855705551125075873550912053663576357656751880518330512336237109004910103625345836700046118242244133829520441333471023294514704214470761611381821040150878721722511420381508931924841228703614448729344207701034132205591830084900321153427309640990703095723146252797132029753680536635962420275613471865985651802539421275438882664023260068802507034780211605074058010561301992232388936176555018490758320896101830162402505596359646401410739507056305258012434390535814529410111572273761098609000950222388875877486008139070217883856040063259857125531028300562561866238690746004935032333020825030031000971434518470700164826826025689244001,
  138600842348839251183436200864532836411683758782081411366114200675518270912661114724319918076485110910925190486070136106248097591607760661045530618064827860310212098475114402554099259618642447952960975462929919593489209511267552577804018092227703921273042420904506752784054745008887320612230273392086165549834106010660833069657161327845208155639191547408252079985308046890301820771703817470272692907428752905118898579072473241934923242010707591876901778194706811862780900963347065180420718079052860632668841749394998006138366404354733885059535557749202321360577252728184491648005595197412998944954053120987298414343720501487230740422640504817662074915502993046202392814047542650442234930609190771904223748161650792439040242451499491264730382374241747468475103622260940897511856034199444671291018570321703812510019758503013845471090623445028106742544448655910267784695079823555502553530452928231817023345795355445628750212089715577013289201911758108074254209017612610433758441240162936600805899957401412853754630149905012509088114190690210111804305779888375200956435464432930826008153026480083843090063512500381698030800566012408636921885004966193459670177700031013052761353424500164281991044259168001,
  463207997218880611181124952465238768411526861573092269840113630435924139148621111453889298873578710832935673736937875106732665240388136771041599934583051913210134285045159209976099720701642488407200971485562160378407009430015139860308266092594192114080767260901152035134276042108721865750822251208085406089749907436480837376134523173908408113096808202323989078227196906174837320763848568358390490107463621463199598398072102577228012608910691611991490232768206724674364908495952065367613801204740370635326895699881035706175015064564908230059102576945790574480561360789602082388505417496892081945767052217832060344733560502623050797561488504830515218210604429046342543985933127390443705372755132260004238569550034093064040385732554068481900383700269377381699703633985923036188919034298280817092982900322496158941028790203019870370297991908028150066533227308380261072102512469468302472217828921674712023456995515674086800212705389515952179601914911818308362629017761077595500708920163573896221936202801415324308869967318012594565284580109970112064309948817991000963252618226967939008168019499760307070063778191582972444500569563375105376581004997540693088517710031024855003927222900163743765423326570001,
  151047104487926521173594983501923117111584124124416045797113193489081140407191104372937357897621910897081144236138585106211641267372139851034529220202908031110195115740673742397099195942955008112180963958142806904541309478373187006260004092152047940934951290892888989250951081608753736720547099477085978037203849719610831740959959573048108030293681333774882078515009992273768850768549468808557900107413850654479856062071218848890250534520693370411416403029306750558359734947931065738185756244404480631048274332226789006014466923970485925058193867263947833780562520419100561543305431759219339714927052387487680135527790504572672217792625104852132338159637267046573501446478187820446079636656050388104262018028906178720040607837479647112150385714292488971916703651434710775543698034442395655594565600323628158722983193703028304061995824859028209486340356333710261466687423114294102496822318559579119023600445043811701730213483549477293466101918817171627822839017941206936338870820164331433624321587901418201433291514065012692087608439966590112354918012025037800970716749121595140008184099039517349880064057250544293858500573214608836806756004102906177425960980021036383235143270000163212055882855767001,
  481058307280429161171122489659311295411425751714418978164112580687138265708311101286646273754126910728004058410022199105598530977578897631031255769466821980310025854675789077175098522175617748579720961034138352570035409320074972549036076091381828446727937270897112691424069421708712970583837043911084231443020372011400824039037316251902908068903539236853831078114843271098739290751869086844950091507329686645381918325071459870648745223450696943441955352291106710211403922637404064146170176060098800622035020251346482806027534088631742413058361742691050894330564610721403299674805456959587702965326052681327450327932350507882593040847226004888106382554560488046950245696616844700449875983401216289404298769336469129060040949059051400154090388747218167052387303677190827358623260034650912095009278740325233594632857986903040028115136922904028290452386939690680261993700975835521502412903322602805120022784518979287698800214462280606641314101923631683695541012017115886209548914470155228603991163733301421541134466923224012803035713088412680112678939823741401100978872651328408887008201315828741063440064349993375234208100576965904803462349004106074476518738270021047642438703350700162686770571266826001,
  149771832224286711163427535139486928311477121038356778132112170559570054937341093706467778001418810779120537010730805105165852524432579021023412813757899694710068914244021295867098136506626932863140952651447629670786109350480848785001610091941688501427288180891720442935379408008630770401878940838084538499237310818290829216929265684718408015421170155286747077252086036775299020754023835183307286007362681491984961977071952316751200294210691410224024615497306620340721902551629064285566544333759750623899285070237665606051743369097443122058666732402375450530568334672463384103305410098442986117734051118470838932690690491344289349243082404714736664113553881045155882005633004640431588944731746759904115585439842957240039146878687967491450371327713226412294703511491294784678375033950374455440276460327494486181988339403056218150109466945028400088705256103770262693466928417177602417097156394315422022101952290096933810205687510509506893501929541499797603187017142083316439725790156287408530967628901425405665860551703012928912685757870700113039370500794477800987767040329954968008219721537874966860064656732312926526400580817011569295552004109257804189938860021058637510675775300162167819042424988001,
  456231295737888461161024388364304089811322614312575367148111490698158254816871091046228121535110010621912060790686023104450654731372682171029098342942660173110018025469692077002097350315396132363520956676001954577812209312470618117343368090228242517017484040884091264162154943608671792389421473916084123270269327447520812070081975435239407933981823620215110077545012211709996720758535436718600302707313045269053846127070194456885484613810682825258788976436206639982021771351565064550724024155562730627378023540037514806096059021252050646058121440480361038080551489460440807567405317706121531384136051203802331097697220492268919992302886804724403630393360882045253267910263101930432532923138934954804124375944016023881039225387830511610120371998966030014816703516974606963336565033137738498985483700311065693983504507202978432765088909445028547656061528472860263617380960386086302422528791974339977022131808353282158470207214408058787236101936765825663112265017173495850038664420157532741772923447901429864062270172256012107135173291931640103439397625024822900997448577390975654008239368752230933340064977775564418843800584767633053682979004112455028759402660021069373261035740100161655112233013443001,
  136087066691924531152999016460832868611364980050855379067111138386440652916221082895929386306325010659528821249592076104120162924007266501012381065615631902309946299699710971517097883147712550612550951651859613914746109230284976069482897090544024422066479690889571102867596916208616484110074172304083277797351982437910814578676753403885507973770347889471305077116124570724995340741784951431491334907226775432718077277070391732513352852730685586083222506747906677588406526616092064104893617128462890611379234406206685805917624599682145592057218689380992905600552632548424615129405330715251847653098051346994911170698000493791547848642769804740025363907007587045407703658975785800434001936165808821104137800140824784181039343041297216181160372986107810512046703524887662167239201033198209393150565560311505172046838929002910872669098879320027745129696201970940264830631594144883102429527977705625199022169560770922308310209108994199153781901945561927072861149017211025937501533800158992697975180021601434992705830561368012123212410457652860103882408488694348500910796789265196736007260310945381383390065313427158145228300588817430247801782004115665048592595000021079854415178435100161148562440283416001,
  397795915644906731158607037896603747011318309914775963613110382852279626226481087866057207832055010615875516489904310103314631738311675011016121176209592030309911686196486414006096218856709921780900944019121898710295709272346382743884529090127596730506567750872204015873314369408537269180734257117083616657575943714290819979013466169267607915785601594970962076243969276390290200743681876026996691807254226432090351532070778925570603501290681090550025276991706514871915633893206063197401785731926430612548426316786660405931973140537544504057389516468993255560554603696183143847805352737142353428553051584948888518039440496275433630071593404765042161655081677045650484370887117250436268954359256046804158136808902264919039518008805218316550374427202067227364103536227742456276047033283279349406103270312112081063906423302914979407610285061027100791681098011270256415514010634469302438503163231916640022217081984265454580201144999130486534301856230756422310977017255708847287189370151069890214401559901340875924525515575012141314728291403050104371997376005007700911937760680115523007282602452176694690065663986804214009100592966022884769515004118886791442863110021090085615405344100160648083300174582001,
  114033435299333341142423263274803606411250630033754356904110103974814008829141072098113841283343410541588653387863488103809514413152183631011546792342354882209829003165933567201096533466555630105710949621740409988031609217010395977070186089294653980628946860874998764418200837408583018141342070184083134909478445282180802144180086289577907833312718292497524076505660915883414770747494950273312100007210841415877670887069152948897510273320672103155754925035206528168794063863942063367221382747204590614656124219199837605957373774200396879057686482788282654680557968677530308529305389654487043853833051976673206360139490491029084639759333104610475588185042431044102895531949492850429739374689752649004188708166192013705039776293847927017260376516210448192244103552370168325738357033402193240319973020312945152782597345202920514907382634706027135574375305948120258475449947360020302449958173198759291022276638927564033820201433094028045734201869123268816390034017308729330904545730151268686698903261901347606624141962799012161649343437264080104911972873902570000913173235132297039007306298441430000060066029749763221583900597212991064633955004122119213807117080021100071422384272100160153589765800042001,
  320798576798910461146697524913020002111213747871935828382109277376043598643451075498995886902991710510708848313696789102204788738678860421003844386919823149909870819701673602737096127976287762026470932267720830923545909139388009984181313089670309864658412080871117222495774004408418229037346177356082291036154418315570804544431017255932507869365278519661024076103443994855073180731506359114922567307121407190283585027069296711209626801290674008418131773661706552745310951223347063675550206889968410618415275644195077505910187588172127242056119757258702403020541365754825996843405215096382491499499050161571435088868720481672557046323730804616727186177588192044161419399213858090421501084492622210704013432370180611914038115486263274747930369523894770199034603575200191548951373033567394929580142610314082013776088444502927935241890953561027181374846447459420251113984549903309202364511979847467927022350966025695605300201786261741758572601884647494896396629017371439568702231100151499637717080773201355286954586161886012184439812392247710105506365205402843900914508878732299336007331454888309823480066411006723307839300510155787683527563003125361300294602010021109816316583517700159664998086289134001,
  886227579336906531141818336995595831911136681132518046985109727316500538128891071417049863215425610427120129871140570102509685576697652871009403091323134727709817023347425734397095302320572893158000935264718140751666709189866315608214274089150298930476705960862461882693089241108439476518585390882082619397582839098220809504943881165120807814258035219330518075208963469365104380732990481883335583107141765715936449202069568907759815296930677553158606431407706597675843471107689063122944390630862790601505106595635066405817906807909220026056206869556224187820542318544784384645005225186262043188568050264913182798620220482695058377296051904626488567667323676044251211643980807730422295819563432330504020189891036275821038170592727295205910361382591240785307903410728706933365851032795542393839133100315624734620245830602937829446835936225027241382028885795580251456993986020573602382922071890266039022443349876743127460202217578604434540901810327644243548917016445378837323758730151767190222777191701364029011467044490012209926929000526990106159433578748353600915950562293111315007358128546479335450066808043685177061700510600018573026122003128612063008492450021119324699680681900159182225785982312001,
  240569396865106591134852279711036774711196225579624697879109187563185446495051063592408082436226010467587858199722432102124869296539772990992264646355613405609740304277055576860095703639686586338520931204576038941804709020213081242269419088332328805167191740865351259163165512008484353679588796168082130110179099509790791962763326536601307728943743374449353075417005760993976400735866641668365951507180546199741956068069107855862906321470661407690960400886406417895455173894563062221432420586604780602664874185339693205831167692084958206056353964846994768620543899924398049656405241646800170017134050430624560323818900484306662071239887804641611041510124183044387942606121869980423485324267103087904030131258684070955038250277510110378990361994037410076300903415211262682462709032110881685347981620307706858582653410802950954729647091227027319623678237076650251896582214804551702310611198455180721021557727204171653720202742432123401104201812555690379131521016532295021989099220152076303959842876101373955573835589462012238369647832628300106875673545781325100917504362928634086007386376920019397080067221141854815697900511053938826466557003131870540940157640021128600895946548200158705191643971921001,
  642057429299473651131273445738232362211024832833952960357108475975385222455761068964451416695786810416584711096272416101301297882700365560995373311421934150509794035962862674650095161433776225680130922717562602428477509044841397277832140088724963098284310450861147903080347436508317793222708483550081269875356776137300794003329057739788907758050970090794684075822428776243502300731137751191440268407015360463513219870068202257480435976090662595791270230159206432449413452681328062394827154920325450604672445827358376105853737075286170502056600110731820511180546501736965475067505268274239244806399050694186449691853220486826849497695674604664862012092605792044594636712677196690425253272915436165504044658766148334182038364765789607216910362857778606251349203421436987204781181032153660319420327730301050226552577620802868280091949487388027421165589677096660252457482074035891802313520363063094180021698797839800602820203378874928675890901815211925157439512016634168102386180540152432498918329434901385200878951768915012270046033239101150107659824363003040900919176565510831518007416258235170983030067650577543645522700511517492138985374003135135799375855850021137649153604493200158233815673983158001,
  168573435581318111123288648724485294611063079046515467185108118922802571326581052203059257826828110340089644575366357101716377974644206100991256637520577855709621631362223986914094365263436714656960926048020757586233409098160055093553582088156096627431818160852431111210222753308337066043351637608081552976761111941820798068392256984800407711507932097378775074160364499257371160722182123839708154907028977346434559856068375302209489254330664737711106361490506458254299411785328062697188993022593610608115405248666930305891804178801080690056100842213432665180531074639980100642605111099749200222934049111008238402030390471073797237773935304510034953123878169043904898235155415600427863234063056164404065750841968558837038528241133399545710364070712142809629103430035126087798456032211763727084597770301423630320190141002891040164056996186027552353194197405560253170150040478142502317155515554200785021872154690709333320204148024736894876101818368831038081133016753235746657342060152841906091811819201397911434932121852012305254233840380520108516876348880861600920973663986205834007447831411931077980068096622075858103600511990618990819811003138406929315346790021146473646165854900157768019104588997001,
  435629900547107111128361506784573056211015779408110465828107292690931297682941055334686058055006810395511016013200971101167919862838298460982898067337418906709649081851848464720094815421035575287660921328396252708365508921212303972346579087331883200949239570855085519234358719008376286107347390259081111973404367823290781607436445580939807622557082760743969074309266402535945730724140404830583008207054095478353900143068689322499202840210668561481670689778806410357320375752961061121957656228439590591396715442916532805715545310796117242055168003616080212290531761483686206960205117900627170199276049176136688608177600471676318462381778904515413076262976626043136745665517481050411169109013412064703996182319218189345038760267498270902200365764279955245795403441845118479186032032290273787090681530301919970914203814802812080139133669092026721103526036188730254071953725407978402321680513122109301021108443285147800510195074515259838364401822109539814907670016892021153740002600153311321685597629101311224687211142279011344313482187436030109452078231060192900922902362552396629007481156035534648150068559541702683253700512473256784867855003141683046902649890021155078473741702900157307724359753975001,
  110861284310028971112094104201036989210938891615203530028107709947250312796371051273436340588950810222437445471912770100388216156020309080986593736865593302009610989949658811531093179683548476165120912880750914749394508945270739781546692087697054483510739150851051159174446452408215517808677264467080224156636930008940783166812429955154107643734413218130941074590099148051463160727774759453381615307099967093963529835068125363337031181290651532318530808401606318243140904898893061211404098750009800592382673068115506505726098057167966854055277574593437630260532864125833499609905128644034080930496049277375637914963730472597931303353960904523507866501010213043205253385274233780411726969907162532803913982285115644675037108768376154085850358115864386038602003457981336737891097032395826790346926810302576595433085474202815954310948908782026937256874003030460255208578064445059502327292400525357019021134348024873671040196187003400904057401826529163663504761016105336329016170790143848264928067824001312838083393127699011387565119301419980101047094447724096800824969576695837211007516292327853888670069039597523351036600512965339980429719003144963292868210330021163467664331391400156852855039700756001,
  277962237444674341115168507369789641710994489554976341298107169791087605483061042997968380089288010251997712003049622100885616012235739520981480691268168630309524293476734403826093390987948106993230916170521490830829108995454164190770471087144678888123127310842147672699741862108231209815707005164080443786043810976980786171711769903469207683901144732563397074111437379559705690711445287417309665806918293033249121043067225819082043010930652717068761162468206331842907735693086061363235337047861340594029960449452066405743451643449025561055454924691961480860534620763419168280305145490189154357376049433624573011660720473997931434342789504535610913082845573043306071263620047570412535008760984348903920203911776730224037154711549628200620351136364981699865403379916133930734572032537050161345292990303441276757457591702820975650742370651026121299893621904910246635685497522158402334227383335960829021165855244888535470197518738522345357601831736263665633334016124044967329103660144461039639756224101314650190814683034011435373643774878170101157926260358488200827182434091529557007553301118744552520069537045412513527300513466800223221596003148246831982735920021171645175088360200156403335902094198001,
  686966534042081501111257714095205794210822639540680238331106400558296868245521046963778325577844010211892391237360565099199433216835602670973283096493359988709553036629994137383093840459429333572240911305997688363699308819892189866814898086296865739527813630844339005884228253608262084129770199495080869221206841635000781190226505805240007515931593221984669073208348121321780680712660604557425725806933157309504518419067403015444638952000654774514532664168006355094582454417535061618802286556477970596759775922056838705771763809349315086055739786863359852830537398586271692017905171716772501956243049673108312419537360476110469541994664404553590848605231240043453522131355068810413698485594919691303929023422196837283037218828936801337920351582591777247027003310958592901078195031725111328018282540304574875005251583002827456501144789684026156336601420393770248420870341981831102342767744627126739021204053452309716600199108200031357757701837854467013947823016145685185900112850145158799717013078301316681459912016896011488127785092195080101278310045463095800829548275366119125007592243817367845620061005213595389889400413977566471750629003151532852521942250021179614893563559100155959092843537495001,
  167424996893998121103018814748899200810853517026616818398106932523833743567211041596647353587573010126853638015988375099443507867040616270977190471835371972309511439830518686091092178537878869512130902732284968884085108840986059912049979086602398203375271770848671293091000761308212219242662795357079168486108007390600772272131830708107007529952513538596023073385774789618407380714851709758215358306959547568416902805067712814866330206960658316768916203252406394515865832791115061104548592614276200581124783921261833605611760150117299856054119394589939074800521175973411507212405011226394692104603048103770862191445540469277608805068128404580135180402716616043667885946110688800415364127888753497103941456757999829050037307838662792769790352192598984437602503314952616916884299031974404907513633470306054616656852140202835787024294110485026200684773269915190241064595304250066802253249833689830337021250219314740234090191099981002498532801745024244760959472016170656379770550840145951618689207410301318954034194546090011546241600802823720101408881344881272300832074654725563754007633182383515076110061058511437997683700414497565120138089003154820565742496260021187380638926900200155520052881374971001,
  402552367021526511107150033592019742510812486282108580595105214323932494303681033614841933247403110159889823028946076099974363120084275680971556132335330752609424388122901885617092374937450710550100905652286048656715508883522602929285420086120926435631432000831714712087526218908123802436747929193079323303974592749480774294872910748777507555772478298722596073707604240578573480718766401302099637706910598894253047604066124980803116341030641436452532219882706216080942332880583060175224631734319820581857018847204925305619126274702606864054191281317214540740521855905534231375605017452964851467174048158918686807506210461399607741834016604411908699826351496042977719797265724140417735392251338362803958891121200697525037430773613450002720353022433662279190003320304235318606662031130340988321710320297978120753666375502846452841470920026026256610398285751610241340966609011918902266073270140415641021305846242086704850191324472825315499701753404862659310916016199404322876975210146850563510400898801321491855912648736011610155597157496330101550305178378942700834769340448796565007676179298960998490061113622051742041200415026720117475747003158109205368653850021194946163167124000155086144135796566001,
  955248042894930081101671737756759430110728764678415815416105486478190586210701038084410519760898910113197097767800286098211549798629671230963328930272944564909451404715300806806092778663535770832120901156595774021978208716839452432385157085240221402125587220833356202688925910108145903409577272689079614329190193332170778040944023390855507510288292712057904072128611699844747210701569922160443887206818701829498756514066217286953692452260642460642229224224406227141609221274689060291397764238917870583042806895645618105630878454536399390054304274024236421170522908810486805270905026952316367997082048241807220229547770462098302757508286104417591132363080572042142302200670138500401109296004782063203883211430578721789037599722708770679180354145974366103128103327442592296887801031173575499268098690291046832583274740802760056285120095713026326881528764730680241683079019728490402281711522933817978021372676721276731060191590173720674221101763176518345957010016232425628938085840147867772748269848001324320776050197764011680337872795058560101703276759592666500837640315248882436007721297538870580320061170568873815533100415564953083798516003161398027089397840021202315152270477900154657295812238538001,
  223804235297998231093859939793800371810765453391067663614105109092845052566441021786658423092518910028742987299938867098454073752916598430967041720989594163709410716116449222293091159972258281844090892341730072246557608733600335541772553085472375960424191620836504062994702984608187668181514296610079115626859393443860761491506579198398507418807108788921574072231696690001782360702787264197196283806832722374933986817066374675353770226800644181486968721437606245454692065727206060480939281652019100584949250053774765305649497309930564124054480675545449493940524528597937478594105041352874880259069048365628672601955010463126803627808996604425833773212104678042205952648712474730401582213465523594703811696680793400647036830792074790946170355660188148539408203336922578454700549031230153829932517910291367949954369073802777341925847332166026414868861133305120242105180685876687202210072404142804188020452738820136601730191903822571423187101774542678850747049016270272552006225860149016539334759268201327468668708815788011757285285045794650101868522206838781500840695776503260694007768600543282764690061229374791579371700416112183422754853003164686308065897170021209491227378582100154233438184075611001,
  517890932982619701098804445457165960410714716519583624655104241780197605004971023903170355105205310061895547718644270098963841131893868040961473361911442632309322101392512771374091325220937735607400894692694544110321308766371360761794750085919764354644596590831248317995521285608016585715990566008078215626791057313240762741706486317175407434077651169281167072413827466977563170704907152170674222906856786899106757213066640929790012252420647050795559125843406275550647431391263060787955831168672120587992878936899415705678794829079177321054754259007118637580527004621585820996905063049136862460173048549498238874439880464632115647596046804437724150969956538042296450364491848740402244930001233696603816358883084061851036114534630888445290347691818247961162503349458856485696261031303895608023185460291780454578414942602799227144643920536026524664381432850070242624314178610688002212377013485836151020548387314362033110192273128003705578201787732633160079941016313558145514941750141031139804452123401230965549948115213011841524638396150550102046799248242605600843944136354752595007818152188693647660061290062138725492900416668328431054260003167973346449271330021216477945925826500153814502575599532001,
  118407409419763321081984644366649600910632705887017474931104529763086867556351028431767737184808510013182589183192697097202389026270272800953050219968274816809345110910745031144091654456390472669550899310323705972189408712982655116830567084177377978821250290822373497148807334808031091243475433582078398517137262256460764995807421778534507461220216959363081072732968048432790160708569111923285308406897767620636274462066108792259679045640631179957485266623706112465427555694918059128177463175659740571281899286032153905512459176244521701053117585327215811620511076609981766354304995541940013398098048820960948437231160466823025272610928104454784609685374909042424456051759151520403169022598665168703822767646325577256036157160516979970530341040586028302497603265968351648335125031399630695346268550292308386234107611902712683864353460059025661220952817807980243260808294692145102215162481748238165020662349931808881650192706889209084341601710300427533864179015362961799268238430141176821786861764201234843701143443810011933613894639583890102238897920659826000847394021685094085007870016759760410750061352652691938160000417233303404769614003171258460907981820021223278802756717400153400421345279125001,
  267569317989958451084422485437145037810671868064046786747104114793691449054811011801695081083936509927777280436958499097420535179121432410956249897795858993509391148548208068220091130399311917671230881829303718504429308625154230122555089084338901671077163180824471870813458242708057765053690546389078730130813963651570769025805767587596507410906912099982312071128771182541669920691484554645643027606716702527475309483065183278688678324420631960230779195722506120420903403508882059207064872926701620572042093928172343005519572137460380875053182150033417826040511644605745285533204914392121771582601047121949699955583210459994539625204123604479135633669528157042604608258149592030404451379923271192903831536653872419121036214668963764307250341401626657777952603287623133007498416031523444984793893590292981604616961970102716155592791725276025830516123369800650244038846714549034702218519685936250129020797779251371112690193215129508838384401712064713450657660015419235174432052470141340429945225233101239137796919845858011103414340421893580092445641261875581400851054273962829839007924258921146303240061417167668036469000417807021742570481003174540990165247610021229897231223469900152991127869297094001,
  597793027682269101089745205884858784310615619626403006822103246072352924485451013809221385369081509957923498227086490097864923202727884480951267822069962387109218236661819921989090257324481981242830883560425199509366908648287791703919437084641667904975308430828350955613897081208010639530326705363077132638112562488980751617201192297995807319274820042759273071224449008126243330692552147224156344406728320590401953017065306508623082418350633233319367184321506133222099680590285059332253329999574950573231837211403628705530550824942457594053280430300720697400512497287637954263904921554738712749485047180139912804834260451456140870056335904311371668466691216041856915156097987540406222575971393701003843481360184585484036291923410560356130341879941703510989503211591600968077444030682980927906420430293837079440119168202720506295311285578025103974388125574690234987124032812104902222554930737826196020958310839626037400193809243760081328501714098566878560082015483208557203408190141523847776643799301243885037718076234011114373715824712130092667885995580171400854933948967472068007980943689525905080061483627721579618100418389395045961567003177820292545864960021236336604264240800152586556525358985001,
  132086063505186791072124167473842366710533586130920034625103521967870837438631017970926321394417409911956911449962461096176130044986579110942546864814190712309236139707988291057090503051133890571440886866329575856603808691865385647798843084120425006976014860811546088576564216807919431776901484924077238973798458080200752874338650575654707333795290089346985071388217886304680860694354673704696636506747669905162704608065508951993744299100635296328525850414106153684094849502431059529639304368188180575082211247724353505547393482351554531053429153973133309070513770069644778255604932100830407438112047264652654055059320452110389466310627704316258349172446742041120860185581767230398657828315773549703859680902789429921036395270934591545000342511101393595816303215274163886617757030887803876523905620294920440786318409402725940930831524420025129753858565485250236139600917126373802227392276773041741020114812825734075840184502160776715410801716438284116535047015555797652447098650141729123018449933301249125287045580659011126305406067525070092906523208634187400859042316391895637007104013640576896320051552052942917377600418980333216599044003181095745532372610021242600235462327900152186642676769412001,
  288724652354407831074581276772154669010571470804892136343103109593148778047851001651274912394147409824439964634921152096355210665443311330945067916559970925209270954383946247408090974490885360730390881312385346669730308517324461066925800083224076153652373560812838471190874069407935199283528374986077427113024856191860755068759887795427007358801885828675523071666472060323867420697376212153109081606779669755974181345065839261858382907800638617218443624260606186180577054826420059838910455518080910577942547451341712905573079825656898888053652925868009477100515659421654338702204947545671155125205047386761386278228570453042998362100282004323130655165824915041169655234533003750391199128297251551103781557689736558775036532963485775242640343340720087755552503220049650161391062030114984734792853080286287837133692105102732708251568678225025161423586110149570237536371510297180002233176177003918606020137203561997966480185308522014955097601719124399610038148015638010839202766920141958479013516156401254901213462372683011139278922006029020093162479020149562500863388859324997308007110190270732010260051622462856668650100419579744550755804003184366745330393140021248691380086686400151791322656771344001,
  624533047490179041079779264970748881910515055545606437211102227823956204481161003387533062180587909849478090068778502096709653851317050130949991674003390740609213804996105904313089187104017846127540872486651971337228408532393784877334478083413471857717271580815168722159314669007963252971668085619077757422795352618460758870452106872340807310155090755662380070113585543377278250681240575248317305106613223056265131363064137462595876875040621392845372999412006013746559227926640058132053247353551790561233792802710986205411202860451823274052987743971743638590518448930570694724604970047065065213188047562304353644918270454365957952894095204332750307690242165041237052465232597190391653456536935803803711097934127774171035715690045997028160344427087709447030703226220176232712120030148395267983228880288008156211455357802741109325348740289025200217586549402780239224657681520524102240074456428415126020163553845166403210186244877853308227701722202105652848503015730956910576399820142214326650467546901261258437348713587011153367526036830750093436715241927136400867983273616704018007116630850079081090051694876420611528500420187535831005070003187632706443024950021254613236114074900151400533753143762001,
  133718278375023361062066640301310600010431403533968931820102469034485419527431006883547392795092509899235048864367860096140482472199549840931952258264315336309126623108429022047089356146817152678150874671802404125913208560069592378361829083756767557076131750819337343283226709507911278327226519202076133298659111237420741540837544428125707217410796150908910070192212508742620480682072075176226118906621799076576297240064223673584326760020622236953834033363306021790748106298091058206609981455192590561905322931288682105417075739120453387052148600159861829380501254587691289764004810266294384878511046813429299649115110456233796587788849304346154420722082765041329736771695040500392270078284445812203715038880810150248035957246695747096880345844438264719140503234165380507523849030190852127736351910281016567269024611202651507557280253963025247605503398252580231125994636473950002148281673542080567020194493363074621030187329902880554224701725721706190198904015835853321138668790142499276896098160801268245682498427345011168648365023391620093730230029805240700872835467127463136007123341993477918350051769312024968722600420803612415190250003190893061253973560021260368945233184300151014214193053375001,
  283468248579422311064324890619122748810464876193969327037102956551236915500041001385837821981809109719722494787131888095275623080403524270933781180507406475309150903263061275806089672221926588587620878704921158970017808511049226000619302082137415746210911800801673763811495470707819957788832985029076232857607356273600742657164584902221307229639933561521413070323025847636787670683437622726752713306635701620113216072064361627708143173870623570271570947849506034333150613118439058321358778966690010562925532216972154205425882921661004868052222356915743621850501853233127080124704814970644980189215046117096653330186480448858808021524946604364749152899553744041456653127756555720393103546949362002403720296988892490666035127537760563345190337686997322578002503244360815252467856030244630082262471650281286319681583465902664340447087399528025305333316869925270231370728800682076702158022905668236436020230740928741007740188584631692476086701729739106874522097015954034965557775910142816153937332176601275914932578575916011185202605008213040094044058525488140000877955558864395570007130330337293208030051845787492072707100421427878322747515003194147259619296760021265961593831042300150632303128156109001,
  595122646666192521068964894225145628310413277716949761080101193292186314797760992764945062431796209738851161014259260095536075314077745390937261155423802394309196514388537856144089125842476590856480861608968683461512408420164283698524109082247602864213016660802977704440335286507835056465009804373076403844753739618090744549993992855923507250111567229621605070539220590385224330685665730103263891906658097055290001981064581027210201052450625663757576309994806053775660680108244058496970970442586660564466985718812325505439020414595533576052330977299971207040502723621153276140404821723326564948687046167764314751009920441253140596595976604290433249856754424041629723889011747270394225634220805228103727285708031430199035169282723878927000331007397923195449203157400354277191932030312533047883364540281622580960912132102680133351375134076025375470359473301430231664277609661288502169558004148380930020273115557963473520181003271678894741101634316343619287504015108696351279558760133168008950095917601284321592493069801011203115567650493860094379273488437150500883353878006330545007137602536726349660051924320076395375000422060236318445802003197394768467690810021271394213962035700150254740619944083001,
  123766443582382171051841107673823019610326927437394097494101387100323616889430995468061345462508509775873222171528445095103382733270052910921382819930709129709018150545417890030088233702100454641210862950670523694023808436516884751718113082442796734319818650805258576388895366607861135378488251815076695467516067753350747737687470038640107284154305911830832070894216877187903520689278341643883611406693952151313093390064927870277633236550628931690943733038506083743881300273508058764252233774433960566783576013561098605458515985639302213052490139215489291800503982966285706888604831370760892096641046239241881465093970441764722583413989204212576040825639319040864779279021044110395730420327596985003736540077381220989035223865278163254450331315573909982932203174023418964356242030398007434324413240282040528335102261602699515557079667686025460463504326973170232015522987001303402183186369564236512020322548734360116400181170071025751064401639522151992534444015123623732079245200133558134512477552701293524654684615015011222476868327208480094736985917421639800889040962819982954007145165263174214480052004926464927448100422700587993607986003200635071408994360021276669784299842000149881467625334036001,
  255032624451047211053746946310580304710354125108145737772101768480362890246880991072131668399478809614692943195466851094197730574193953820922612143403352085809033863095497343062088430630916029877200865369934003673196508465636833020721579082786075033044973840809220054904042866707810586775038934114075118947063084904590731307055079424032607114039929212592675069147345661053310020671509978654529745706515101260001907990063147298993632314650611400400705154120805912968146185807805057116887420249517080551024698426858859005387300813992964737052722220313982023990505796468120341354604845090863139128129046339631131531427700442474307298798580804217415188413971994040118276022427118760387740789899875095303748750134379234032035294985628217821860331712132504583005503195147971039655400030505277726177024320282558530093692864802612323901376523711024563199496134526470232434810459854739702199252301647399219020380097968832328020181361837102786537001645432579889767819015140360195715734780133990079679546878301210358687040619044010243380555834327220095118345661341313000895027559469562339007153025201616048970052087622777893299800423348833844874929003203867668350886620021281791231072569600149512425982492919001,
  520814686968807331057558517292520926710310785234512552189100151263896193329280982084598129155639109628219853167776075094375138406382217240924895380915958172009062688507015235531088787477761439556940869700048093045182408411711821151072088081138551974640043260791605292434163231907718207750931597690075202077679116462220732193464204505064507123274140995320498069241278274227684450672442439663470660206524128950921903677063232486268644243310612183344056046625505919971935131405575057177820768146976080551539867345989764205312959198558083143051105901533233407570498395929651772257404864515903331573628046480019337738711910443454442833006974304224017390617938056040161126798573036510381041669481756293503664802873130553588035387340847850264080332220772400555990503112191039021285760029639508269819674840283198760453000502402615220011871359125024687076509265162970232934165638294536402111815098333838966019446961768208960920181581899958377270301652131646025828588015159096135196534550134467665737188307701211457492599001913010265925253623762900095524542018945307100810132462072213548006161189048029670270052172424569787302500424004873350573228003207092075123458600021286761428981434700149147558396896829001,
  105428990281419491041511644586012140010221309779177061899100295271092995512830984020168942188512709653766657841402809094706132455269290050929103691005592154209011517423669650161087142936168507146090851739458911492329708320749192281894789081242507954991981650792775900952674416907731105893585419883075341068279042443520733657549231800609407138341577329375124069392691283082304320673927296246596334906538330552933831183063364872246670015970613385342702347557905930594094828016906057269114446492714510552302369278416078405319142869483104602051154549801447965890491210521199070467804791898389367421256046675518853494931030444802799990664869704232989839461775609040218655397927335390381396563162267964003685834782739390526035506875120681303240332871115055299836203115571355195603500029806995874651253850283987922299459488802618746500040544107024836086143434924250233527539110271806002114033516360105388019524496136035445020181833980212482746601659712046887138668015180038960934316530134995002652266158601212655962413875284010290214302510564360095956804327088084400810794330455109037006169663506838031090052259346830718171900424668605044745901003210307823111707120021291583202103226700148786808427619244001,
  211600894054239161042997826221959806310241757552671952123100571710758890135530987691288498691641209610164060084029983093131898470950316290911680236925325107908921004280551273356087257569290081295480853097174125925852008336504985034169789081421576632254886320794768196009875845507752794957304233669075571993052755963550736060930532344564007162779643301239113069635330809377385900676278301270042894106560547115554935969063569493988826979480615220967035402862205946621472041699505057405215002413695220553425497782740937205328142069651110396051224500762909303200491737489705113738304713033417795982131045946648136535881220446650379538876856904245137041923744009040295606659248474610381865588625201279803611329744148171686034661088300839201830333700079419586542903119828464916507722029101539856914414010274958094910171382402623029880354344298024101490720605142020224231083013249684702116632260909827138019614232737116374130182122228628040369301668275914889294975015203414350509515090135576506236392319401213961607026031764010316355904783881480096416402537176015600811489497264006990006178455288387159140052348403988048233900425339926588903937003213514458895583850021296259324776886700148430120473844646001,
  421156609140549661045896488367423088510281167639682385655100109820938411595040971460053642993829209519067681076715291093244529569637837720913078386435781196808938029571855346471087460859713405614570855476478066773505408363789470786613737081728005196110259520798137166557116649907789037455323943287075953305893368963720739982563846298858007110218401007399259068102193992637838930669979964650619125906595113411952222483063884095040143633380618009812086008907305970683653474009390057607127945603529740555072010852752456005341178865260623015051324637069809909100492482930557787204804718406143446062089045132115976389082360439172243681351499704261521198637290099040398170066560455410382483322685833920003614903917815669123034859415359289509400334753551790205912603125174456572330059029127400668766160120276147726174377894502628219954278728147024122901278239736880225063462864122916402119670440070889439019717898866518850460182451269059189048901677935630590304014015229467569818577800136216916040502896901215382386386459609010344463269654324030096904647779472939500812219118878976509006187571106456411450052439609908314888900426018734841555232003216711543897592650021300792522474458500148077439761603841001,
  831425553150982071041150520029944739210115653255088754837099209328288363881510972750632879657705309535504447892419116093450025741244341000915599512522751542308968370641523564997087818913678488854540859618158302621550308311072884866696319080124901459096621580781379836149102045207614922732952554938074157917135417595670721634407954325573507016535706151159399068163450649061932710661577654179403419306414860935498546076062136529021237740600601222559613460337305810663222384343223056905256249050946100557474693494635777605359980430600847313051467364148127594070493533003249456427204725885976515406283045183645163455725230431260150097426525204183539940741126853040534393077889042150383294188088723601303619540645387163044034111369177226351060326088409099002092603131869091505524251029159406341618611350277602791567712256102634493716348205808024148479226157957920226046208575737758902123215415713237433019837439373311481310182826245009714691601688814691916745889015258464868445000150136921313997371910301216926729503682890010374654759969475560097422892914946799300812984371722997185006197017675801917220052532977899421938400426704925925566383003219898654037749730021305185472656689400147728712330727141001,
  162831622175202041032227354202230682310129955702070358510099395988450334117570975143597819981083209565629173449779215093822301999889226540911011402571565946808812207405062278564086144534564763036560841678052078770932208219096520724765143080212932011590008170782325310631994693107624858898144886751074260041613012606700722660444400259839007026607044418728517068259980486695947990662480539679152656206423097279576288234062209758723388374430601856716225773329705816008271947348790056134340849019322390541096504942532334305286977619182293927051669937292472838980495006148398115329704736258118807552994045254273653123145900431724747125356535904111302610109556812039714705297730494780384355082074771441603625536938525775418034143872285046379380327774964495208708703140229720824411722029198914300846067660279378145195862641202642059852652917148024178969016872410800227204108962891012902127343827450584200019975040699365380950183252870047296328201610104864346878809014290694952144925250137695143829097775701218603554599933276010407054040128578980097972533074353776400813786452083933161006206801709734022810052628520713088819700427398395293411456003223075379395714190021309440805613582000147383885022011679001,
  316423668282895491034279141083156897310156896290001382493099743573853928897780979548733223577912609512045168435412423092149205385035491120901814322292456802508821649655770664488086253417523265929230842908758524950760008232726067580928707080360759605238668090783894891180865975807641165525757476912074425727908449353880724306068911165814907042575620378110155068411284848432221160663879589667553139206435713972288462064062320652865304460050602806069711136909905823918573384933516056198443499003946440541601317416333870705212557768722153338050956262977632853530497064561861660335504750585403230299203045350719463465008990432351920438627250104115237537308470243039952581273823252610385738660971075438803633267674622379976034185297847575235660329899916353866868803150643102048849439029247559611447689490271153909166174496402551163912189332661024215236385349038860228565654444873883302132142727806811991019113315720409354580173737482331725320601611478606908016351014326470535392727930138544231236490677001220422289776982937010441790225126689790098555006184269851200814626575927518096006216929917729489820052726250547546141200428099037790360469003226241323879958840021313561105290128000147042905464599405001,
  610225728027844001038159646756383614710110727336860524464098138619815709712840961760111675076196909421953340797422019092268884359197537190903232874188928927008838143339387135501086441466481199749410845010281950379793408255736764449935536080607518209745767520786485302303133028507667773840821577400074693033337827923840726931011116687455507067759510912233180068647210706463955780666036462835166235706454945066449588796062487774999405600540604220625288218568405835571944785543768056291812090448915710542328294867972911705218053743501818067050135933486838770840489929531941226700604770301291359614478045481939606885309500433195583552939804304120470916308155234039126537618414016790377537433356735189403643204687603807089034237943879118572700321256989610760635103063579448864573141029307307305834856530271416321135975064002562094241183423357024258286230291874350221016353308728194202037710838946658869019131453995706875550174287103528276005301613018965092093401014366129976984664490139474804887167692301222392894192139095010478998030657978390099171793479793975100815505978701594977006227409003079141800052826179050466269800428806747715659380003229396104903965870021317548910097498200146705722063562050001,
  116809282409604001021544565167847372510020080515274839922098256599807496855200963221953943724377609439739997970675605092481327750517619170905722849545022514108866771391302767871086764218706738237770848576899867308807908294353540727464294080101700726350578770771073602020574614807511094904553201192073112192548724795540711109570597546288106910726971035101364067101321377704155030659345155307597805906484116529906150611062738449658507065190606318688243637286905852663119860229087056427219603526517210543370814614574458505225847184241106104050192451635274380200481390186948824045104697332331581210590045659835932745310150434326564437979510504127408173133197682039167537657013921190379868847285910902803655940221719196502034304662117832928800321591572684233598703079609100423463182029380513748180525470271734247610493294902575188781162860844024309282858430588340221203518559486138602044159942133668148019152226819205249950174909502390826975301614743729854401454014410039001750234120131049351821902705201124525879744571488010518817924207300900099824420003660251700816425915131854483006238245660571597340052928317322118043900429521418881752037003232539353069078430021321406713709965000146372283987689633001,
  221973424268160151022902896323679355510037325172467262980098471720768934142160965858004778049739109471459500764120195092856002050738890180901006579365314624108711615233294142559085131479189892189770831459390677509992908115878202382392247079169265762158648510771767218936427297007518062281788142312073180640490070787380711766884316916791606916893997127072225067157818740909228460651439614598813684306312815730110915502061111271833372617290599416590550694092805877620389963783044056622763228252338370544859698094659638705236854487910470984050271394826651447340481938903020960871004613425888708764855044900171045505015250435837616400386907604136574291251340085039221111784825949390371288159654536174503572215674234905525034388982446461098840322009752374728244803099422257434504263029469998455422493350272118569681071292202590842843320026217024369572868269312560221422342537161324802051616411931138754019175978362810342560175613263313171062901616672335139096277014458592511471324580131160747207562312301126832333271815887010561396277058663240091051445509151058100717387659009316714006249446574213675520053032675918735065000430242944671593427003235670711854072440021325136965847797400146042541157479078001,
  418823018796332341025417703125488423510068903238847812479098861344662628910470961058024847554793109312766161135812843091151261837183649350891759368594073366708720081262876817878085224840428067705980832468557685980758508126566075677334493079280123526957451660772892845558686981407529245696556779261073289307013962859980712799023352910627206926471918255272730067244605495852896700652207031692638033506319433920740141208061166900302759443380591397077307954916105711390886187442668055903981763908312600546977520092693758605252340440512842260050381244722414017350482694100247547642004618452542403256903044122375319980591950427849827731256549704148647039780000554039290903192614272450371676341819153935503592956734641925187034495263286079125600322531078963620214303012385230172307487028579127996384646830272582135028644461202510951798466608843023440710977920828740221677713030632422102060222908066128954019203092787612845580176407860161211531101618825985838838602014512216488158474240131282423818980069501129323939255969617010606885517148787400091124351284309225700718392502969800085006261018414988006060053139264856087263200430971218094102537003238789837311216870021328742073046358900145716444233319531001,
  784752933005559101021004206538320440309912634350880190158097156241262626874360951898541685104158509322661576073546861091265622403913260400893056312338203624508734509408429563924085382231538203498610834151461799305086608144196802759597481079461018919744977340774709775019185968407547102360381057125073460941161693869190714411628377448364106941274681329682275067377285827361515860653367587335093490706329334372228442712061249218128136466650592063712254099480305716645332940148131055130677551598972680539978122773645690805274044301237047262050533537220247324430483729764025386141404625271478769979558044165796459464851080421052079715693744304064498884801369506039381550225614077020372175071005788452803511931624243676688033628872978003974370323179368427605744203015390329508517495028711913817344107450273140083819091541102513175212573073453023524489132256874340221975201352331564702070140238834668361019233998316250794160177303735713424362801621227793838340960014571369992881583460131415188353176996901132013003038768760010655444282693613740091201325257915858800719441758265621928006272967838648329920053248093613245868000431706131837801869003241896397768742410021332224399411694700145393944603871111001,
  146040381093850191011848922525928283309923014645035045944097281580635930608620953385188854977880209339976854413012984091463595248805402240895277494621967328308758955373751059272085646053146899315840836942224429996118208173121377400577020079754619806058764990777627207977133865307575468220865448827073730672878330392780716918827679166628406964043265035963789067579183818921145090655114710323124299606344079359516175165061370505338781724880593035431334679503905724222572085405113055188141818380854830531421313407108160905110434926640573496049743908179126268680485145089412154212104634490485141973742044223872684262249120421405503242242132304085249711532044840039498942053969167480372814036418430837903515272633818409138033796408060133383160323983567564048756703019078234334026222028873126097568242810273810223780911909602515817106522205944023622969257826623010222321148096176879002081549410940502908019269171661528297500178312387052073437201623902922528491436014636547263399128350131559899553761354501134912474544412730010707237576515295480091282537928386358800720536754529774276006285301483552924190053359171136532077500432447578322689816003244990073539540640021335586267362804700145074994374633831001,
  269968614943106531013381924070002514309941653764548285645097504263600614684060955998499366009623409370092772070434352091804282317170221910899059459657953737408710013891272687086084108580722731949470821154484664799769208012032031261456493078122864916674151080761228769487054125407412030235206643967072115249277569039030701079824060630432306898900675743385966067885008765373200840657733170851596974706365944306822322654061548456304230988800594446042119466762505735105817085148309055269804949601808230532016788049931733905114650948096368599049103347907086467360477072637684936349404646913089964497074044301302146148883320421871714038561130104011233297252828269038650535959725492590373630429210299084703519496177962255507033100595537992157640314978781497408237503023593761383627688028106842602498762610264613461168190223002518950156424399209023738520070014472390222722758431485230102094653881732277948019309142837285318580179446457263198745901626878740189661799014708279913875314330131717470823401306001138035972508679573010762436920996992970091368164403245486200721678839532817902006298025968536543030053472505843640159500433195449750390653003248070556635989200021338829958360878400144759546356703411001,
  495809273848978931016146362468738562209974913750680489695097897465768651386720951056466912267417409212216296138860661090138716427079102980881546232339780558308616913303380620649084181481113177973490821909501677927068808019693550864754683078199006015212738020761969527294384701507419081785724503925072180899122453137230701677276432266538206815202126658640037066134618935887698020641164044904462308406298229750707596044061808465394688372570596485548484070060205750676432185744196055385416891897270960532850985860645423505120495315042307951049143068729424714040479688994752969243604663598334939303152044404211309874351950422484851325285514304014757846856981481038845750127980425730374670721282910966303524821664316744316033126740618829544800316207491629961477603029110291077327366028130451920366828530265574295128107701002522658619149974216023873858375918066970223188207857449615802010968203093742242018354500379021171330171071983381935829301530184982654847324014787139240018584710131888872927476677301141397809212554173010821220513592611850091458384440408171800722869378932736948006311147890821221060053588105627925895400433949638152626469003251137550490826800021341957713625684400144447554055710931001,
  904765239714294541011110042253254517809813390074211711727096158759402932516940941849599110162161109221167103184544768090237875634868975740882624200632988588908628408674268080850084301685360523064590823141544026209642808032066198152033539078320693396960597430763141132281698713707430119217469843872072282593142225475880702593166105377518906823261119866251539066203860487190062170641744605852103317906214570396751301667060118683563929946970589422729640299787105772868025369020158055548482459455009160534015394105130559705128568597531193357049197369642043108560471322865761521915504585937822506349361044540566015739792870423288838236848546004019331568495246788038109644874695623420365992838681455755703531519703946669933033159283175127724520317720996538439053403035834984423673295028158933326482699110266721383896164701002527040014152279536023103209535863120720213726759419156694602012688987018758578018405897003345540200171214775403549367101533853925675420040014873738633017467960132075136790444011601145013015718275230010883773382818515600091553382487954792000724109756017995137006324673823966240090053705977862851646000434710035438053660003254190769683856170021344971734839380800144138971660943149001,
  164071859026633411001992434021395602909823788863218925513096279174951909237840943219296007585649509236466246529315701090405626159459607610884429140076973253708647459128514879475084498849417628584370825141677772967500208051946427221092883078514215033149771170764985257030519994407447314213970572254072439396125154190470703990907339968578506835433877489544014066307374560768424380642603628679976856606221522861814804149060173526657038792380581363638962494374405610437747734639571054777642062496953000535634981166333020605139682643816234997049271356057534902640471800207412128842704511575475495689341043720694311799427380424340031465525713004025250247099747141038141753970772419830367668811199136761703539923294902788970033199693162625936270319581113394203549603044014877759033965028193222315586846220268088192241919471202532207026051442298023121678837422762530214348893467703804502014656400989275506018464055736966709640171374691800510619101537920567424499479014968736105690802630132277356386424946201148897367605389402010950287544654178610091653347722385134200725401371444033796006338610315857527580053826129406579545800435476533437506395003257229939674480480021347874184837928300143833754034640560001,
  295708985225151071003554723669379620209842013327727975019096488069152157615580945571310455884410309262471088833255857090687868711369698710887435165328722452908678864692779624557084820585801784734270828372421574226603708083732421600283886078820492299491250860767874248278930028607473978416028095193072680082364559219560706114611546359329706853741265928015430066461476055598424650643869478080807687006231663980876255242060252710865409511510581965845592993852405614895296752546909054109853664813094140527879883672836546105154931386722614820049371836668575636680472441901178252720104515543089501021248043957949704827215340425710547499334516404032888489341701559038182770935151113020369787995478236181303550441284102610596033249756760866693390311186218328066742102953943990588211297028234420803175542740269713730692187355802538289653898025327023143199884198531650215066451134024757902016902490435169052018529776547628796930171553560944117771301542422821585247544014107283693430895460122496691725502560201153067411204091306010102096215927876970081758474085336478500726745642963450281006352963886736703790053948566606704603600436249023947687617003260254796539848670021350667188290362000143531856701470062001]

/-- Rows from 100 on. -/
def besselRows1 : List Nat := [
  529762002590444751006304605621249585909873769183388646073096848408655025641960949587755493623647609210643257006577266089116021089127185820871241532086230954908513037247116316297083134296060618920120811356520584722256607913430896749356533077130293263674605600751237920313876247107311513961851685842071104789432053479920699327410848944879806881158953329025801066689944377405208930645727349921996522606246398433811945876060366604900613592450582823321719062781405621178578941976985054154631859493622840521098097988194141305075784224371345086049507864113086831700473301874577308117804520806888478172017043126955038462622430417492427958142540604042719534865258739038235032366038504390361246098735352726703463574538739592886033311639849697540330311465343038965836202965971600738432344028283824417479155730261164339827671923002445437635720952915023168235686150292970215892792778832345802019463039738761783018603943511179498480171753382486394421601547401721483767339014118679641958057750122734371937183705701157540490322815869010109600368807068610081868960318752446900728144005150093787006367741027269971530054073295305119780500437027398773347982003263265086718553750021353352832366127600143233235838169365001,
  943484962352289631001111709545533271809712879162972823021095146655051934529300931640922937035849109118035372096160853089194655573435462640872062373062393685308521442458590520191083218691241039889240812187126834984798207921440360839489107077205934247647601640751937219703264054207317839824926987075071160754428469886440691416727322389853606712205100321306210065102730358096097960638443418254562952906267724815473393642060529813188875426750584039847103937690405630004162765089408054216902168951388780521525057862969096705010420881154844723048691438681404709470474450894988244802204527769922729331123043167763844245842850419802843141287517104055339752528324412038301453116456941820361582436087843888103479935333905743046033387963328894072330311806173260073850802980511862375783688028342953892787264750261392994188354238902453823179890085963023197313324758754190216842972779926033702022377959227283717018687532550788680960171976341159573396901552901635738724127014131142277033591250122991698452457633701162334773466746798010117562605079719880081985009998490475200729597909117314500006382948196656993920054200320843005366900437811549767991924003266260566759780360021355933167390670800142937848263360312001,
  167061950075307110991949196903450458109722360105688491292095252118722770651920932793303569006266209130400236497001769089324893205405610870873408497431619908208535090722492847225083354381576813851790813509423383518952507934065594302863852077323992216525775540753017915221624272807327519525766386564071245547516871939430692142797646395175306718279258929715798065152348585724095600631239882068579487006198476457951649269060762833809597082710585759632150753573905642357864740695755054303207020446095160522110982250380029205014283206116892889048938421696099375120475981566580068488604536954354270325206043221061346105980870411279057721998866903971498861187488416038385660980802774780362004639692783155503410027055073723807032481892325354049320312221486949785835302998054966428969275028413591124817104170261663454678831081402463644038008964195023231031973539615970217933932123297519002025691707125669479018781619786247382670172224821504161006801558970495912298457014144758011347225960123270048285852209301167469281543598612010126005078292151260082106831566356879700731108822230599214006398591820779876080054329648065935146200438601368873148792003269241003077739170021358410207489525500142645651427528142001,
  294142319077241140993398593665841667109738608325782751439095431097817491650140934729905828554574909150977082528617401089539513512225207060875605164703650257708557145423667479272083571510288321828980815604701465936162707953876146668677398077507433350593465810754680749276649139507342268150326551572071373483863775891840693227613349081360906727266100020198765065225043781154548620631813732256711612106114265581776999955059109433764544217220578182397305658017605659591506281731240054422429392765909480522912487845779280105019515065202546117048126971782021233540468014733867083533804549034855782693661043290480749546856720411664409205185452703992137130303664172038492160826037171790362533399408193339103412548938095431276032597241657102113110312726532358256079902911918006991476213027497820517928522150261982807454589381302475126957516827678023270071817456393210219184710376308734202029453749164094011018887390533257935970172501423575351374501565660036659623957014159619163376039870123570877418859086101172963916052736058010134950719295476680082234638360559742800732678227814825718006414678290392340530054461281329092249800439396748156246926003272206171711353790021360785931221067400142356603403164039001,
  515018078294006690995893437946942433309766306327083885278095733253897326277630937967748678450594609185047727087820905089891445278695676330879172450940774471608592615390297144651083917340301490743490818909711774149616607984822775868477620077791224602814119070757228380657310735007364646316200826070071565727550563801090694841968770871459906740510588339526512065331144574385761890632643193536077454906120589722640193265059156429132759905790571158383130160319605583552887876760545054586592839755662630524005459723364539305026580550631489218048171280140396250680461070766682982881604464880879002425745043380658386201757080412160153115126914203911843107310999921037626534190412469470363194098934948493003415669635119055391032738600295310527780313339472144242176202914457025088616349027598076330686062370262359246621559684502488531555941556751023315203960223463700211061667874003763801933719058705757185018100614899468022710162808979679498132001573026048886438768014175824284714196780123895724286067997101178839487753394922010144423251978078300082368648644570849500734307624856365326006431213959349137440054595224502587626400440197579847126635003275155858089014030021363062282198170300142070662875068149001,
  896847620471131920991016505123056263209611327668218818828094124075102685912940921335397715111537709014118302310777394088146574777965221120861493807968002028708414939545427799933082146564764657146000801409962845965873307813295401052467661076122838280779827500741111526922970869407298461811291212094071853446850549468330697234962684675074506759955368141527515065485425329820164850633837771208450336306129610517861343647059222822274002193960571634326114528035405511675986183654558053811922472046484640525491310028646973605036093870841543419048230368184184420710461426449697945305604485610018695136786043497496086912970270412796310302840784803915184945176290516037795681521216930500364017815696850708903419523061628487031032911477990899080120314081901408282539802917502977958262725027717196811288730660262802233084732774602410415466282834618022367301416132169250211225379600402180701938548660439967478018113932868782801340163150572194330889201581128646437291432014193478501117745860124246213365318163101185117745807481003010154447208988164130082509085634389120300735998527700261306006448205142875719280054731480976874464100441003756373228254003278089856798397170021365241169698925000141787789130810388001,
  155342748249850160981744078248858770609619252228438470803094208885956860237840922226995647303902609023322514977562291088239848131518198230862421341722550456208423987387242428205082233109202659688140802221374729403415807820749132810039629076189896353612751000741702108773706528907214935494808319827070128236835008218550681076854856432182806688396193975576163065708945090006773030635552057779917315506142433191354041815059316302890103205210572298096269455690905516263278142974311053112024802136008310517505174395414849705048865639582442324048308942773632976450461894949060748981704411265522524640659042648488432644829870413610637639615195903919422177852068535037100811557495619690355042520092566190603424271262733190666032112247771797750450304979450970135840002921150403423982857027858486008522733560263322674129911462502412233517979570798022427351291228198210211412288936042006801944010220873826825018128850365411399590163529552528625673201590032546849272900014212693867633223120124624058873141655901191821407392137750010165047947439259210082656177524199029900737752465742708553006465658115878171800054870053668252040500441815170393489790003281007971361107650021367324469266646400141507942051346375001,
  267659766270200380982977013512490066309632555067341712950094349920680817086410923695749563040778909038342583458913458088390629630114468000863906679726979271608438340483056378108082369111006498853450803484515335333758407832243599352872660076292336633679395220742595834604175075507222564850299821091070191932629120221040681596674619689883306612984226981713618064103161695105604160628003560753319799406160598019068473510059447485970785982660573220832125099157405522580400970215957053154085411202163780511022661710117517504965962752464586256048413140061977299770462510388975984876304414784926305951288042843130015218186410414650513155983209903924782192972212275037127431609194333240356314511198081949903430109946067665184032137949814019980190306062488806699356702925510243233875916027102578424799904810253933126180207590702414345951396507654022496468267450528290211625396217641378901950178689053067954018145540049962428290163949561279101960701599807366718890433014233589738181392480125031068566739204001198974187776988223010176251664591512830082810157510418556100739570983119057248006483579111293357140055010945024452636700442631714830988392003283910014012227100021369314023299340300141231082101786015001,
  458814802518267620985055868886678411809654776501087041307094583318857300880600926103791364547863109062739244435314885088633262671566360430866274618675555520208461009569750172113082581913272507841250805442576810817130307849896106565215436076448195382881616850743942958347524319907233957734390843797070286164784172992280682358549372843568306619002287151303803064149578623258619490621149729442359051306086244666039254726059630978733786932360574499507122733891305531252887028545432053211291361097506840511389357587937227804988785641698765964048550938750001137940463316722925868279804419353059788398319042109342116034101050405975254607841766103931547000197434942037160715772070052630357890132403457513003437275030149089701032169197093667126730307366934357047276102930712479530397019027122354837844225300254648023425372704102416796764519852515022575909512744891960211868053097384504101957136991149134370018164191131756327790164414549644423714201511052793224234922013256293149969880320125469147653693907201110660083086068480009188085413501759300082971263814132277400741455638387561176006501974318479220540055154157030305545300443453282904358731003286795805484483630021371211641628815600140957170322311920001,
  782519593571114860988543808677801963209691716597242066889094967737610824180420921003342634240658808910218493645933126087102194969885673660851003300513171971508396658434068600526082913478193268367550808465305806368680307876895857243446387076684387235866714720745965611839979584107250906100855670719070425055543996017520683471146071618241606627709728374778205064216119749245683860621645959591539872806012233604033706185058886820301154373020576265917230943434605543122977590236991053288867921932612430511882047968969982304911916770317653156047732686930744384980464370425667709287104425267585315700573042141449456940873030407658965253496257003940065614619940556037202242534982510240359837817895473956503446050381379110337032207113854103395730308935202416908186102936909161730444130027145694301969957890255483935302198981102419635989318798849022667091150223391790212143999402401485801964976782765709553018185010754595010410164928802158327306001512227460550215216013280939223110677000125940302810592021901111472714016112212009200577118635308800083139739701906248200743408004209088293006520849881645160790055299691213472180100444279768158020927003289665174797094670021373019102089639600140686168319245414001,
  132799555198185110971436770450562378709515283340969715457093159794750569712690911641680725625837108916567648906093674087164186755967638980851597255029992458908315248167153851334081142794264990907760791311263460224419407711802799084669682075104092340926689390738990973359940735207276025002186318878070629024018729510000685090136401560626706640264641779803153064311186769662494430622348448272052982706017296230961904952058124241870481856100568698660556826113505559321473438135301053393765855785921050512542172829352597104915950294497224151047971772154841133660465743885035329145004432906513832978978042182539015560509520409794019667810628303950769083089301992037253943355643188160351224052949838981103356776940191735277032253037866149077380301081729561129793502844277876741924607027173194418401818320256459856109923784702422920445649751774022771606430193552060212457403413362640801973799263043898580018208225481646868560165496960806085468601513513362708556299013307671575820524250126446646311683153701112338001025340807009213755591432509410083315833504982304800745429667023009399006540211898322366030055447548650246666400445111064491249629003292517959049106570021374738151078104300140418038256257549001,
  224274892500119080972404594209911313509525347965502044243093262638102945260170912673956689818480708926742193279214255087262630259155578520852531928478657739608323953301100705306081222294689858898840792022920945240626507718044490836882561075157706320306534170731349919222306634907111311711087934329069927491486518648170687437774621573633006658305346273144995064446556759117145980623339701162176524306024375257832122564058173514961762764310561203906099941640505481362358248989821053535206170085333090513424204441245428304921290947237010263047128547166808348310457529665889807158804442748796253424187042235001113907445430401249532507830937303864188682945952372037318176985865862290351519865332855649303369863468127089370032308558287274490980301307206697915602402853025721960441008027205545679615644190257597530377818936302426714580219757829022891245760363042650212812905837545080601983716054881430622018234082885297659820166124050590742317801514919747563308384013336642755584037780126990400268673998401113258745864941642009227650545823165790083499798636850364100747522226719476704006560066417873964940055597729971416426300445947066186115236003295354003217188560021376370504101376600140152742845722611001,
  376951362869943120974005457114748348509541846491158767687093429713847719208370914335924249935746008942976403544090371087418295858019807300853996649121903244308337472768476423116081344655605158324210793108429738487510807727479745137325114075238025305576004040732019239442962122607116769279199080525069136270585886958880671083032169929431706584142018829892753064638686124693857620624733961808544563406034243074940899583058241583314647645030561661227718951967905411126708593985542052725389093629882040514599561389405969504928343837450669500047169602880363434820459845858690551551304455399915422388820042301830140798130450401590552062287232703880977921898340697037397818493099865930351883343719780849703385799183375045090032375559761637800410301576867705849519902863393847729046235027243544780730316040258921817965079121002431091399177902094022102801876178077350203215667770482706001994850155827900716018262853248086416250166815506617820354401516456524492768424013368014686661077020127573900982711313701114237865811249828009242292613681973460083691893609198346800749687296308302690006580419440044854510055750235368177410000446787667934327587003298173159957726660021377917846317027700139890245340211927001,
  630590721406119150976641322994037580209568770446641939415093699942640116934180917000114105635765208968769182233973710087663418750123633960856282617449630204408358384937923003124081532244118747002440794757810043489606907741688790963795531075357907111152484960733009370477244688007124770964414806748069199513081470030290671571633926531997206512102185538627421063910498553466397240626688942956404388706047956395204008589058335337262979712620562285521090450965105415172741141109654052980414484233828890516161643679477105304937634000063773312047223201262832618820451284277409391807204371623627021578735042386769246176010370402020130884445845203810193908437011592036496365698075734550352329106293322809603310516859317110252031456273712875705850301898827305857213802875662643976220804027288109678392311060251046110326801245302336133503662749436022118417853114249080203671422960099651801910733696447549348017294831381122584910167577202769505039901518134303914805710013401959134321324580128199603409570082801115278396940066807009257713360218186370083892382046240215700751926501584645816006601276913551015000055905064598098952100447632764863011663003300975289413215330021379381833063080000139630509524125440001,
  105003416201138820961096187212125481709411251392474397216092113511850868233440901125273842706356308810957748850123201086104782711042236550849835964267445814908390604885997578898081818721452427816600797254490846685369907763007712988370902075536190804546359490734468886781682878607136462069863879480069291101562342644120672272999624952614406517349487100788110063129382940835459210619421720991993508106066956745342458440058464092715635728430563135330892361415205420631817850586701052132147379896014010508232294736712242204949840261828616312047293003160010287510451671130455308522004392381246530419375042494487818164441610402560115152088290703812805520638623096036618066217764568540352874746301320190103312866887799662702031553337915141949750302282592128400287202890157654649420188027340296605697495260251224775333879591302341934238451187338022136224830401276650204186534708094838201912132538743314664017330338566666208160168415482041655627801519964438692166797013438658186190279290128870085739022356401116383497443133911009273945299292800680084101532697423490500754241480791707185006622644734708119130056062216991133210500448482252559443936003303760259022806050021380764090378770500139373499705458881001,
  174055571175734730961801262190011759709418327625445396605092183294267075866130901801248683173835408817387798493305159086164824102553810980841533754658268218308214005495120865790080125455859063902310781101969773686350607694877769581513992075800383557795355700736612812950787887107153485534654993055069423299489312496320673276504816112825406524791704212442324063183275796183604440611323021054715094605993205027955203211058640410320232519820564288896803140772105427977470210642130052177639004218194600501097007539875307104865838216292940203047383688873938943610452169334626165653504311888017884255582041630798751670956180403237460658187243303816052852119401303036768068847428489510353541400842925849003315713023557101953031669865578604288940302739282797521065702810725631341738029026401319274101261270251431863018625627402348598964732974854022156505072834042530204768057765335459201913697903225202548017369724631847211020169337188619372260001521959067482580456013478304751091947000129588054089321518801117556450986044149009291021908656618150084319619448518659300756633884280639101006644528746099221230056221691455664497400449336027094777852003306527943336918590021382066215516174200139119180707704182001,
  287233585253009860962946895739977410909429725872471831586092294725618462626700902871331300645135208827478617460633754086258232963589651060842382251260665355108221566063568417131080191515593852862170781667722124354570107614235060872412884074119051237964696050729751309373885630507178190506138569243069613488552629066200674707719938163705206535314034421754081063258813708738096910611852209849418531605912936122430440918057881179765816694390565850504126715928305437835347099700800052238160258341108660501458083382972609304886754637944032442047501228630946070910452809476254266906404315263374701724558041802923927629908380404085363555587809203820082660503802599036952603646449647540354354421478277220203319153965294407444031809525355446073320303281888819457497402812739560501449921026472570517815003220251671566303499725002356246468979789518022179573997341747530205423805601174842101915447749196179853017413370160802854870161034970176926755801424131160099720296013521103075774346660121035634731769452701018800670106852007009308977645102621380084546921331093543500759105374167863979006666934735281293260056383486484593921500450193985046785823003309278223835890540021383289777442853500138867517861880974001,
  471931062379644980964800438888342662309448009108194050390092471932401168011250904558459692106326708843251644608097326086402988256586887430843685880674975735708233082446196450687080291275487715674560782514760248332318007621281653317689089074176462786219221880721433030311475577607011392518385744989068886228066366868550676742532235313045606550145640440683753063364373360147833490612585372301897583605917902375054430912057120905138278578080557958795064386224105451030007593226692052318471943019494600501933117817544658704811403623130591003046653221303020726940453630147601317095204319553480835506889041101981799849168760395144627306289496203825073767108061937036117919582251131850345344163666719345303323306864351617131031976633863571149970303925560736678246002815108076864321259026555646663052996400251948648686761035902365010520891673166022205783691620121130206162423450981676501917401772718084706017461688852824265440161146097162904603001426494564952311736013567269279904608320121117794194769247001020119699654617986009327847959526172420084783722530376780200761657623989997738006689868433530351730056547600161454844700451056023521644520003312010988752490430021384436317335706900138618476998696882001,
  772058797335373080967786769531408776909477215520179060347092752602005033614370907207893050862673408867810587769690759086626458016803075610845681271987058129208250559955990431065080441385242127870430783778464027942526807631705086629227211074260664344219520060722098885923820057107016544673670159585068127611268857926490669626572203261475206570988335845847515063511452922238730990613598217726224107905924704744683811592057165432154212950100551079761952056767305368645480846147983052424779171260358840502556561129341128104814953630666673432046849317736339307410454679940520867934804324994616297251530041129256256535068300396465312288383139403831243671425470370036145691935190754200346546914676557781303328310556354912866031117626254010386790294687944562828866202817889517314155178026652374933870412550252268515416874374002375041594491777386022235526766473531750206993467571799698801919581555207951598017515130034423704610161267955697748544601429064058629892123013617031909720886700121205595721420649201021517220267102297009347669311886627160085030312391515119800764292318356570364006713335514624917220056714030166554955500451922040174789807003314726132898358670021385507349066141300138372024440834646001,
  125771502856679530951257838709434830509312368243345606306091119537619121945190891135228805188061908710590304399373985085970149808201328610848724254784855248808276988420187981291080666457602158106270785657258776468163207647071254397059258074383746629437743400723063994224862091107023949338551351048068183172640629050800661370186133384296906410019158920056193062715791227188780930614993495349225521005933996496003638841057225740958843195670551461016757474832005392103462172029139052565150533487355610503372827578958041404819562382845511751046110174875389175120446019911616684870604331881137811164712041163484518988523860398108723088842384103838856450642152285036179669724652600630348005982625390127403334329321081280085031141436087807995440295589564131247445302821151150827783730026764844238425478290252637292743271402602386508767606686857022269240569732092830207927491162998695701922010723080414976017574181333564084960161401466507044046901431855397704944030013670632510728557350121299366022691234801022997051886800547009368479186064044530085286985424230291300767011152600731607006737341593667516840056882773783140805300452791933230866856003317423557494125460021386504359676758700138128126995363731001,
  204035147903988700952023550879380422109319731661425438157091189115324169242800891781033285874624408716476449047581970085149678889181728250831334801526360886308111681010144549575079100275351755980790778441010207142838707669648361744104027074563075334200245470724458376212702720307034558046401788076068262109768975686660661944326367033693406414098987258684034062998872696793489470616910279384880837805946654374574913568057307210402078696640551971733290417386405312326405169129441051750053487784416830504439049109908044804825532032916849089046142598240943506550447726624587731620204340579038909685388041206354047370111350391014979856625477503748232178594447182036221165649876878790349772972754088260203341557250769862804031169789837037813970296654257675724703202824970445267671405026895439714525798410253061916069156577802399601816219041361022307411791615626520208976137437077672901924715119131125190017639371524631108220161547619363104957601434885372822324653013728326219828201760121399447125286286301024563157314492840009390316104604756210085554041305881871500769815832428128164006761892225943936810057053827903580882800453665601502800543003320103170003251810021387428809849678100137886751946274483001,
  329646614584631950953242308716305533309331354546037034050091298030174678808990892783570548659166608725538214260520953085230082823672162830832034872087342723608117660281751458706079150351672720893860771255178168504314307510271143077217057073823514673593754900726466638187977699007049710495599787684068373920459735654860662750821147639739806419782370596717795062138994574386766780609536316810697388205963852053314173231057416980669930064780552654151874633554205316455524401535367051993036722056953660505828555243848721104833247146220572766046184154053881229890449895897857002176904351542511685647400041259941373261585850391267998154243597803759758138593429536036271754702512831210341190928096524782503250223318381626390031203502778817891580297909675723938085902829436499664428379026104688145151489050243550227907165658902311453352151660660021350581493543976450201015224035548981701827722986391599379017711273553076524570161707477508491987201438171865148104073013790382377262708330121506196911890206201026219645799457122009413219643349646710085831784882943256100772708073564133808006786992905819917910057227189035563387100454542944410010397003322764883969509920021388282134366654600137647867047132799001,
  530447541472953540955174572272624446709349630300860419651091467878352193895010894334123663493042208739438099000548798085352400127389079010833091116809730289108126607398183378850079224667141732689180771860215362096719507515097436904825137073120055600495263440719350101585534766307071287370105519458068531827163278336600663880435622206953906427677277216879086062192872293162346920601312440734450430105887156745828074305057564506893288024610553563742943128600005321913900866854593051131159798354053210497635261622166828104843196153023237920046237301127415971060441264741246943192104265334138766365486041326797167956521800391581065874947892103773902150923377489036333323541078130920341448783913078163403260597250031965464031243527276060677370299387848228980113502834651661768926135026122226784717029520244111086619781984802313154220889250170021399350594647434050201146993357552875501831065165222780255017790507749018362210161882182313369205301441733905251105566013857085158770450270121619989673453008201027970776665478024009437230445939094340086120526170898758000775689601399612369006812649065674965150057402853308305033200455423861995794023003325408618857945670021389065742561133900137411440513853228001,
  850188105231509410958226261268620623109378258304192321621091731765594492115540896723507150327217108760682869988166164085537826001633300590834679255785997702108139950244725850373079334589492294655700772747841674948090907522120120351822219073174470703955509950711347759158583473706910192118832914600067754185844042060500665458136294789257106438613871748413204062266898410518648980601801407933274221405811865599276398836056762279606513252800554773180844604098805329112384043651095051172828547677269770499979193258799611404855998123087058198046305130218504368570441613036745684850004282649468288635492041410048910634468090391967727773336026203791228389509074367036408128595785389670341759515176303680903272996320169731164031290974300161274920291112582980078113802740733352798727581026142512410358600220244754487013899881702315089453968035478021454385852617904430201294476818699783001834775304452816965017877745239450672060162072958176304589301445591734491606801013928734228330913990121741216673580138801029820962971762303009462390238188607690086420580352570402900778762150635388622006838866074872938160057580816478767355200456308254943902326003328034299899352330021389781018762397400137177441017588569001,
  135735751456900980941302764443456189709212293570251415709090114025977556757660881039230634405225808693039306161449276085817949436901986040837059042469554561008159782329438177817079496649617209559470774045889060243213607532306822702952590073252763184873376640711936815210402093106914528641709864432067106640851668044630657655513991958060406453722738061001587062368337259590333660602466020497219134005816112365652817663056102676022025342800546377460991364793305338583620372554082051227209281641885600491301342206895166804772436117924750044046391518835910871360442053040839744298704210434687196737404040513524593600895230392444426615691674903711241612430970323035498864348873962350342133366942720517203287793204240328048031347138095385890810291316643293585699802747816123657406700026165945641528430210245491693953225127802317288857804135092021516426378067095480201459383985163343901838890087404250545017973711569091427000162281117678389730601449766868992814576013100564541188836080111870286725079305201031774775207854504009488741842329301600086732267774883760200781927464925600599006865649238769083870057761073937877150600457196024594329022003330641857938123590021390429322731916200136945837677734034001,
  215877475491999570942055376557196396209219240483350113187090177033000586613210881600570730136486008614214838413617854084123969396674049040821061320183913996108089163292388443093079734811661299161950775938169856221115107547037653377884219073365071571910943620712775014323056951306920649757279262819067150357983136263900651070755337502991806374539607288521826062506976405095699060603367068725908326705821823675107936908056137959297369420360548500475085467089105351016646442539439051298022219975285340491693276375924044904793498658173004806046501322135444898160442607810090895199704213148376079466259040641901533687043040393031090076610790903713828189764682069035608743458653672130342582455083668039503210542504175952136030413524409205690440291555906029030991502756053969486036230026192981245634867910246335390253772269302319785715716332970021586290724228833040201643592599412364801843449473696909339017107919054028276380152508067000825703701454282166271863473013108815139243809450112007626778713280201033836945021626928009516329191107442840087055913944082845800785187296520101583006893003797753139410057943620716747728400458087072958336742003333231229283433090021391011990092070900136716600055044046001,
  342043089215289540943230763092814959509230003363435602487090273872529463807840882456458432793904608621642967776098072084187253412806128590821590384300332980908013255075036902903078108370882319273090768688197820397803707568275248534214670073525697922281285110713964278198256938006929265405585404962067211400905343240650651493521271162871406310314522786130402061695970333731151380604585597936380642705829485803580069986056184917164140120140541130344194447645905267300884243059568051390030855827647580492198465926601395804712043118478042106045640607892647280170443305927567567899104216536043916765976040800885099838284370393751829865539197803716980572528437619035741590650497719550343121087301409918803212640388316973693030491882765501340060291836064830781141402765622932233019447026224134883151319110247299840237036066502322617157079141058021664884596665147130201849163373111100001848496957755433455017119502828275282260152755311616397119001459161894608213542013117660242685872940112153682524202945801036012368979401645009545197341737402700087391849519404669200788543405906078733006920934926328153600058128451492897899200458981302732741669003335802355563684230021391530332747364700136489698144859822001,
  539933965580929010945059790418127318309246619216577521649090422193110220322060883756987566567066108632840884914483647084281900282921233910822375393784642218808019641901474280624078159324214713508180761267263008468626707498802576388710800073754760577458716440715646834865022004606941358385593730989067296403955673809250652077575162987357006314235171848997682061952955479693309090606229400274235661005839740350201496791056247266047224651630541499569500848328205288581980591828406051509321971375555620492848276368440912904715479980575810041045816945220218949180444182763692091572904220757312176750943040997423034465120930394635773292906030503720816200820552818035901952589242995150343766135732670933403215132871680712709030584243316214938580292163673591270600402776724024022312013026259990621922860820248401070432982775002325824561809147272021753209230616880020202078355926384914301854079844994480734017132213756445308000153024462265534039701464431805228428876013127136708487240080112308919003520103601038306112357244871009575392489702459160087740410305224809400791997561449050595006949447732224640210058315560596465620000459878617313477052003338355183584135020021391985639298258000136265102370445867001,
  849204200904823880947895843538131969709272181436882746570090648584055428807440885726502928701268808649666003425385615084422994325448586120823536464849331028808029014293160423076078233509754923772720761842828052876999007414255458319019772072108048073354350500708020618490100102606958285611024468984067414454472061985110652882336607166236606319595026171553621061130152044036545030598441506108111867105853431921044799068056329859552759450220541984845691279016905211633253817865576050663657491369274710493682388472820732404719857011936212935045103975870738342850435282010387125091904226007792461205147040123996206051802090385718050901946373103725475595043335120035109522627960850050334537468873508280803218089929805680646030692958872261062730292546267352064158402789586507483231610026301209300311687750249657069051357077002329454003195884759021852370486786179310202333645950125546901860249546700352877017146150235509929640153317241227941879901470119207387408940013137283301051327250112473821236504777701040723412962457850009606961982397988320088101937241685741500795551539033402766006978547255549682670058504942016413489400460778920808456970003340889665187661880021392379175447764600136042783576433607001,
  133082209840727690931227799459827875309111137186387979133089992972729261951880888699246928452796208674863914925607359084632658056569377570825248377480461149808042725678165714575078341195495485548790762671802841590992907420507945390420619072154233749258710440701136035015855260406881915622192398144067577967992610750620653988350268032529006326903955906191999061177314011566736190591141126633360542005771669868844725608056439022611789950450542621239265186600005215244153395807429050862915765704769480494750905761466601404725420450672478410045132076206348781610436657544690548489204232526797969825169040153875465071660170387040967748965938103731126640390775254035132780891963740790335458451636192767103221593203162516622030820752786995646120292992498931850776202710447157290140101025348537826231188570241108800597549070802233556732313176411021963588719657647660202617743672302453001867061894675051815017161418265446812120153635488901062504901476253046427220200013148140770648284930112648894858836948701043269684984273042009639954332611695670088476776393820572200799207121702618378006100823846797059430048696589406723191600461682118049760275003343405757118601380021392712184400926000135822713022370328001,
  207820512946220740931902580256012037109117125300509237796089151512068768894390871317160773842406108511248041728111306083943236753280562640827764688850405135808062724226928497387078497046521783521560763862296373048953007429417842844590633072219540988804137510701604632173535604606811481487112873520066803864561118499870655504528605599477406336846037775392308061240971446125159630591538878462561464605795908062888826853056582979808478357960543453993330846854805219932714399124320050111964397713006670486116971915765658304732478201223450543045167448822178479660438375688929046326204240606621999903898040190622521658070420388655390491297028603737969620560160458035160727256274822620336556523564029554903225737819015281891030970773446009335580293512293163627588302712167645608555580025402819507137816900241271647517841662402238189707485963657021108820947596449920192933613713729940301874577476757664182017178131959793495230153981170696915276001482863984895726180013159751934176857160112834666772387814701045950522872749265009674419231835646410088865278939185043900710296609929935542005103852627193273870048890496092576377700462588114605153788003345903420889560750021392985887257301200135604862376371771001,
  323400702552240330932938112194824557409126244388724160876089230419053127940650871987846642624439408516845890246356677083140187972882676480811145215260310584007991806081646609903078721948598594796120765567086645402298707442079095661163610072311633707441482240702260359890723087106816049946095642885066111514595561006630647577787441120704006350336915381502751061326689350960497860592070367195850098805712804773982353717055772403330311908670544541361121216326005226007883124236257050144974838654666310487860015707763799404741414580219415240045211893628760193790431051794746520712604150603684806238552040235740658343396520381062238772898474703646243123726302284035194256743338864270337863866600128209603230634478850405548030114665620625533470284117020829106472002714153904524642021025465005514723832210241456776161725526702243416172541774330021122771508459351950193284496423420068701882861994388506928017196414085218198000154356384269154684301489984486808253725013172161758289995010113031685807970813501048771705244845025009710407563404959510089267801154011495500710683026810552136005106941549991109380049086655076519285400463496816788974836003348382622651196290021393201483396585800135389203708876504001,
  501534374450537610934521955440097518109140085984017336145089349279171220586790872990442249834593308525150393528957639083207711184320709030811683970952595583007913397300598398984077104556382257639210758001487160379203607460021609341069791072441147901696131700703175528296482239106822377451749687277066154300551436111940641040583553139766906268599346057537317061441842271604607560592778936640671363905717056984172290319055102111255246023040535958195587768573505233863595146936933050187335524813938150481007976686087045504652708423961576953045267635979897825060431318431530706177604162951904836239220040291045948835691250381301516714601830503656230962725417164035234425829694031610339418175349138966103236411847341006313030135259372640560260284819694604511626602716444302998099138025536167597428832270241667013482919667902249306287846005810021138373720310580910193673930788534850001891986643433681918017216396631445833640154763367082471531801497648905136545332013185417444921401140113240523400507763401051739198816635861009747971415458144920089684704397898806100711080143048249004005110091091369514910049285059044608732100464408131672390994003350843333064861860021393360150857483000135175709486500523001,
  775157916660735530936936475396697535509161027873489964463089527753985155915200874484535115022000708537432600680260729083306823302054038790812468802395163356007919493613457994398077150990265931727810751146812745089806007385379355991924607072622806224975011610704449469686238574006831119061206624730066212964387163242160641425411225012709306293262481834284498061596180958860410010593721460413195334405722670495153109055055134696546716584350537800488175212296205244001184928425179050241588268022732730481290121743399210104666955286867813886045337422562561071740431649727189445344004178178714387877678040358729001114473820381592136002614100303668270273012144316035282479891470031130331126354450693403503143219283316488039030159341573979498940285635189580238754402719082365067980185025617512164013023070241905517163163485102255937818406909477021155807039013733660194105779019044208101810202851954161442016238221412923712390155204504336756913201410589357261024452012199568519249924770113461774276620625201054859162360628232009787164093714166980081011635509705298400611488139451160494005113301720370672530049485700372537156600465321967093055870003353285527178094570021393463046709952400134964352565990398001,
  119407454072204930921060541700597330809092611477290099497089794906045838823880876704238292368955408555543057303216135083451872508506099270813608791132823229807928282359691237238077217430345239494990751639123485476688007312112116472272708071876936522654855060706218298499125680006843165617157665956066293201821891528650641947816891122774906212649205863568272060802569780497547540594972406098295046305730065107336752631055177299237464226110531019109702173771605157057452060338060050310937284134745890481648074094936047204684894610557209909045424637860195543370432060659461979474904196924214610427677040441428236933965920381944571180885208203682760976637467150035339885032868886520331345149008426896303151229958226997108030187467944238369490286580491189258045302722117411235962035025710395872362484150242175811052083435702263396883640410838021175268677724253220194584252912504982001811307104935881712016262040703658663130155682337258742773101411475689591713240012214666920138434670113696057154654398101058137950687110339009828040134061443170081056312472609347300611907197363510779005116573898835027330049688571131734372500466238231664178075003355709184302812410021393511307420946800134755106188273210001,
  183335260753786430921616270895133513209014009514443764650088119356470933613130869991979629591259108582168212601510329083663532154875156600815259928391136519707940917189474832791077312235600462265050752336394034612435807317136678609829153071123153573210970350698668076227151493806859725729366586918066402682337974079570642655317855789448406217116075227356188060107794434239689490586629073120036975305739785218163645802055232883493318461060531328696295553599405173839749213420673050399414476487311880482101362681240218304610744292293325980044533445383418376430432569515164206700504111996405220132126039542316742944613060382371324665242914503610017682865121748034408364952897410230331604212324105974603160644413183737653030220277180195606480287674973677758012402725605273310546252025816342869481471610242481824056867375502271778773707561193021196975191826410010195113942109907311201812520444898956067016288017906705537310156199571774129017801412427945338928590012230767093083497870113944015457131854101061582118648467928009870655314954087650081102538978844068100612337498629762829005119908081339523130049893663095443959600467156834783021592003358114287896295690021393506049213749900134547943972601858001,
  280578853449837580922455380289859750309021126297988063233088178666044143139070861484715894463316608412119688446134671082971505854404651130817644677146881211207959031119501376923077447150366524543710753321339356708171907324181868291467374071172506832825356400691205252783271801306782435271892310120066551709476910696080643611276076619803506223107062584910491060144455253916456800588818329879101069805752535380834743594055305256939618257530531728818320764657905195369771324365700050512084154381981010482674334209560349104613573434110636764044668958672694973140433198586293791447804114823670212378520039665205066684592390382887298465138218503612107829441319672034489943596958706610331910549800503796603171694611878588261030258502524248493300288940712578599028202729609090402201024025937063841327451610242827932783630331102281188837679414277021221164189906181260195699844359294663801813852621114337973016316328259836280080156759087573505604101413450409626325634012247926085711865780114206318035635819501065198425165382663009915066669610835050081150353179530081600612779225558836981005123304715139001240041010096774477229400368077686638853673003360500825444757050021393448368421039400134342839910794010001,
  428034570345398380923718449089219603309031760378406921943088266638901045346430862199601970070504608417824258993231321082141835443484095820801107944115056958007884929608420976598077638632667941475400754709017140032313907334035050331292486071241025183757923740691671682865613003106711350330434465995065754094226342331550644899995335559323506231124299642530649060193155968538399720581170526234871401405669225611235235975055399301234198935330532244940068763303205112293810907031596049655296170074984070483397289824544997304617116990764153659044837448036426465530433975005302559643604118287595944689643039814662721425196330383510230260622687603614612754280899875034586994443062188460332272315690194221303184648553604820975030302984832053415640281040283500609810202634200194488637045025107447704482279520233219008255779857302291743449146390594021248096179542107240196347397909858981401815314162247541541016347159578968933260157363947585677514201414547605360327034012266203645859425930114483659908109813601068993837273820086009961332498012183720081199793724326442100613232560888411899005126764240110716680041031047627470808600369000698220357337003362868788349526160021393339341831768300134139768361563194001,
  650935387741785510925613880782647140409047602455119798807088396743264806149920863249170874050831208426138602723926487082206489571194826390801601303713407415007812185897497724892076909687262447907920756659074640998956907347780719297182212071335916574212110960692312946977493735506715590610535808599065102830778655179410636633399133742690806241829538486243350060257712042058778280581550425504868818405691029007359549514055521263128159502180532909407454441831705115817209666291552049836998408599997850484307877881155021104621547759389861101044104659012048427090424931745923147506104122524958159052156039996161614956214510384261204327875081303617610588187807504034702297388787434480332698990160683564703199815518285880058030354687319016656820281208991198210604102639459094760508290025123073150909810680233660467059695063402210357105527272684020278056557219802200197062516165449793601816916431268754104016380713040987107950158017407872302179001415724304097733421012285662322267907880114776763008562866301072975534191702847009100951237869142810071250899759053538200613697687749320643005130287088701929160041052217960011074800369925781322524132003365218171815813110021393180027031991600133938704044940554001,
  986851394221222630928449717387185665909071133388967231632088588598146902766360864785717851876193008438222769546811272082299780366574376800802308044042332757607817437862871647006076129238898841836330749392483917960168107366909032370319895071467013071596088010693192485047275385206721364462173637604065139899986562776450638959761485128949506256093072675362609060343104790233975360582049316152987180105611945489205597417054679121224595296220533763232987326156805120312005172638876049106712191869631450475452797835584765804627078516590075359044130576874131956540426108820670779275504127700518281592646039121624513759020840375165249412822568003621193401050720238034839104336300716250333201581917366796303111755202394852690029414712185060644450281403439743106412502645476570815476232025140823260885496140234158327294711290102211681331570242534020311357752225135440197851624732922570201818671683702304884016417204007632609550158722927958051714401416985537297698245012306367567934262850115086376949159599801077150911404158454009105966718031535380071303710923180776800614174789630054306005133873685880523180041073606836166568700370852848553043411003367548974743899250021392971462739729900133739622036785671001,
  149155669965558590911267995748794051508910598313171621371087870702524386634620867028873063866428808455737629174470518082434027544446159010803317767894558818907824887599484635600076183134802458764600741321435665161647607293462692659533835071647695085564714540694396008421830016906729208532895869312065189899423907368880631207509851597232306175057102148790134060455824585459957100582703139184819802405615644149243740605054883047306958130380534858324603194090105126035569418752185049135805480929525630476889881518367814804633970853745762882044162643698884191780427554711676426332804134012466913806929039148272724384065950376252037488591302603625469551333131556034100121472040759860323792859825247793703113826858653463904029484319338853761250281627311894874402202652354885697705397025160967022975296930234719269732846324302213162633815226570020348341534947129620198721701007493465101820593129385443600016456862892207000460159484181610816166901418336607967223305012328387846147211940115413279794671417601081527584766218537009111185907305049450071358267347180793500614664050341384971005137524449088612740041095213293180484700371781813338202957003369861199622821890021392714669133987300133542497763385071001,
  224760912044693120911897180212194916908915744806816695289087128434062860275010851029451710707250708381054786589622748082626696685473827960804756593905716933307835427710945597874076258845738094842970741854497507434217207213023528403195671070896130311530870770696039059770956117906739841057664740762065257190620916249300631623800202175667806110021764643037753059604311312401926100583558295717553656005620447316384176926054114598561279869010526260264035574523905133310736641098863049172522444824768470478690631486826208004642545874414057517044202255245729184220429328077972120107304141698871782981934039180492655159997670377556699429334227103630566408660696918034119306239075026040324487617400423785103116243738242461621029564947466619914420281884782595890628202660209130785724570025183804976400451350235350704624013682302214818201798103422020389381500625399000199680316444272543401822694997913253613016499936070871988770151030506808676976101319783102709412275012351794739245064910115758278849260112301086113394621842563009116615153971096850071414609649752004300615165653981120087005141239788199086080041117036342059096600372712589928316173003372154852426417050021392410648178018500133347306996136905001,
  337686184734964850912830301590149088008923323467428568706087188915539233183210851503575201811589608311755188268144895081902485231624261100806801592405009629307850302489818936753076364938188554365780742596190140672201507218103848249952293070123693094313052660688277052609994012406754221234994603348065347556882111234070632178891684737259306113353023214746563059799518574558233390584674577674739314705626672839668413502054148437896044681770528051764463854514605142541768774751516049218781159937375520471094331217374624604553197127410957859044251109963863581000421149978988959515204051045305576984595039219394127490167930379120776024867487703636633505146372039034141981544594788310325302974522010255403119060092564496310029658237716931299290282180580142761455002669168715619767362025209672619398078770236060844614745943602216666948950326550020434885740209420070191073568167242193901724992607953593075016546686840393569560151118972385542790501321330904183796644012376663060128441290116122211455559959801090916409938127876009122260938668403170071472778934911315500615679784898999203005145020105475044790041139074968156388900373645093402690577003374429942511728610021392060383936947200133154025846320395001,
  505865870492502720914210250807517460208934452565265665938087277108186812381580852190080547316933208317002697008593957081129622878003846620799700754777680998707871242280585458054076513240706869607630743625699233563222507225106127100967931070170336559705195040681131857576795032706673627351587395737065468650877677470430632917514463256774006117754599676842462059105563508888101790576128888213612747605634726636441982010054191907741953225580521033696646112557905054234049836042726049276962505191263240471375670862776659304566406220398483820044311271606715537690421415535001820064404062393858010086994039266297171585168610371099332548616810303543846178857828562034168749082708048550326258721249722547403122338188456232338029766060301744122220282520054391011620502679379016936134438025238944154268037000236858784282805165102218729669732168159020485299710659204730191189669461593648201727502440623227052016597396424230851130151214253482013000101322986203988123096012403070966561087970116505945806019606901095944932453562352009128129875462957520071532816788958837600616206627661744475005148865795532090320041161328131754747800374579239674151133003376686482519686600021391664842889837100132962630759948697001,
  755622282012037170916245277708224206108950750437602141788087405361086405297920853181466029639819108324527854256004312081185694044792551260791380055194709434507710064759401870886075720047879403291330745051342296754938707234735178768984239070234030537075152970681544298811658491906699759367973318422065630578213601441850633898321274966422506123558663485058159059139100538506495780578019956349709024305645126164520963896054247647352143785360521324676686302950705069018342146826362049350017118829625400471726469033206426704582761642886357535044385244179777345330421739777039034936304076153769875756232039322769808427593100371323221169450701303552409781604933023034200308571302453070327377709227486893703126149417704479674029890544345589070860282909252736401443302691003202447103979025272036599247631280237754586826600878202221029209648635478020541109317710099480191317299179288021501730242217123788186016652365028927505910151316814904969161501324755515971064523012431100078291506060116910381766460398501010120750083917236008134228712894998540071594765277316537600616746367018275609005152777245303415730041183794768641590200375514945493133524003378924488278035920021391224974236319500132773098512703691001,
  112548255103258900909238067395375937908974552902084750647087591374017897838330854609384427121244608335291546251245041081265341165663975190791958387724155295907714184081758988098075100775474992812150737020951493882125507247946229126418622070320813949188222080682102363956972719306613487335587661739064846656814655847520635198069871791210106131196885798893820059182930276761199000571047430104801403305558529905778651063054318991815873475710521694541838523829805087680614967302644049441595998501997260472163174453987037404510298142672061266043476061530568229700422135098744400649604092813965392533320039390672260836132140371590560097538877103562564533129336003034237472802362407700328686296815525078403130575549872772727029103411134952007950273355004687914431402610422424627712396024309414299773366010238759378487184963502223590649085164467020602844224849467040191457500297303781701733230980843881366016711912952821664060151427149003727715901326645689985384466012460835597027597790117336451711802453201010671289487140799008140564335002680420071658666941242704500617299187865099618005156754834007653140041206473790681777900376452128451359310003381143978706485130021390741710197853900132585406204951473001,
  167168481104785360901362739298505977308810922253734482235086860450780413040010856660745525830543808350648519121995246081378195962544126620792772216621644752307719940956293371945075140707071359182880739735839443079659507266031064191032274070438796894458138090682855845582801028406618195733119663465064113440319681127700626917017142914955206141229185910981882059240102101844953930571365376295498230905575774338933031561054410148371582255000522163869018172455905011119866988026373048556209736303136640472705967553652411204512794038892021684043587394299334442690422616391010515144704011295780358229931038472208626670932450371909369918692330803574591114948600530034281184863168103960321021485482924110403035710145629556307029119951267442008730273865015925367347502611924715444657253024351593874277647750239885451321871756702226441501959550942020671081403011217840191611400938236545301736489184141538130016776381749148977530151545777050285411301328663926091151949012492366429296037800117785121373905448701011247013961560733008147143762322084990071724564794424194500617865275211885724005160798933119434040041229364086385703900377390706985107577003383344975723962510021390215966313744800132399531256837127001,
  247610059699588710902004763159907680008815958754312107094086124867445311348430849600249834738955708372504169170110979081537711950766517120793914682778563629807727967396966390742075196001179993652670731346954448075713207190732858865955569070598848117893629650683871014212935247506624496078399748877064151681100235812810629185863159532045606154380480686845892059314536814984105710571776499971043655305597920227596148781054526415607826747670522758394290892259405014078704415732642048699422385244384650473379570411417853104515870283910099494043723677427773568220423201521232831955904013728042057843267038569987203503174100372289076546157298703588817109693796589034332537821474943080321199834058047413203041660149673588372029138987148984432610274447972819231532002613630142039076603024399149632438585760231114637499236698202129611930249115433020746448936286496120191780220565135615801740038780029326174016846135445673374360151673250675589862201330817789218666851012525785312217542750118257390701465934401011848850961887383008153974152863248860071792502319448438300618444814147235067005164909906342615710041252464521472931000378330600378095378003385527504158041590021389648641731975900132215451403457468001,
  365760440142265620902941358957672569908823256292607623765086180737092635301990841380184689128044408210353192539386681080762636658194012840795514692239980923607739132132123203364075272393633996044750731859293823591538007112439892080634709069815503180613147090685235892783684349206632909373199552364064202400531979138410621217467427930869006071587582100485462059411266643941527300572307143676303893805512631047651616132053674455555230924010523510254844817942405017795198161048623048878087150995665130474214224636079089404519656179512689487043890261981484010600423911899996090504504016660909359929828038687090832537257800372740744409834519003510562440594850213033392797204655011700321407694882351080803048547684450131115029160872968005561080275113658482135130102615564373222211414024452719506763815650231255711827681440102133134975517957579020829630099776620650191965276571347858101743903318992733982016921561823040775510151810153363533225201333115224300815617012561188942228661900118754294731908396601012477753311119925008161062803061892580071862523464157182400619037989804654964005169088109586126410041275773939431270000379271728763979001003387691591656377510021389040619494978400132033144690110615001,
  538834886934574640904304109837433223608833802760897841648086260936833262923880841979254951012362008214747394573860963080107903417284466050787750243631697572007754626601169127453075377697631323573670732560778532030547207117018345746180634069110816180763811600677067163024213618106644121562239007014064269537930942298300621610432883666991306094058940960227239059536738894403757100572990828390450665905516264233135689265053862630906811831540524459517686703572905022455862987106219048110063252764703000465246870382469117504524308594002482454043109359569251900170414773150323409314704020192712492145776038827158833167168470373277346194528606703512545770453306879033463426643969706760321649684921367106103056512068160854969029186010024860048950275873081521193472502617756095529580373024513011541556116840231413418106452340002137046808638478593020921367726578739670192167991286921289501748108051180981753016100307375411271530141957102004397880301335564571884634626012598678106780146660119276904475202328401013134699621365867008168417148706548090071934672637883995000619644987328746762005173333890942385960041299291162071193600380214013128489161003389837268600193160021388392766820407400131852589467620857001,
  791700392407231690906281804411534608608849005991413894025086375775418883969460842831331548840044008220955611215605158080152305754815552490781086657273796431007676081239741231720075522533178617170670733519150881753028707123231621151356166069150266341620920630679519191464773445806659034013715757473064358234875123576380622126117265870377206012335062490799426058699199486205221370573870137329917969805520905733576419087053110142231542439740515656058459202881305028291306519168644048137740918977879560466522565962271546604530017577518346886043134143738574905540415815897095997739104024440182177047995038994482331576218590373914074522417498103514883428008502248033546117101097324340321931102100011396203065712083110497203029214852581704292040276738618768378866602620237341563307015024580810986691639680231589573764446812302141386998974286279020102246888179684210182389899424090058201752680034218160986016109111060659941700142114748509514021501338174584231912348012638357819041386120119826327809533166901013820694715250587008176044765840794030072008994707577582600620265991841616623005177647590668254990041323014990075486600381157375311211675003391964568019743460021387705935377021900131673764387737868001,
  116018576030267760899144633406492315908870867370636384518086539809831975404140844040345164648130308229705948646395411080214474072488540450781520080222153605307610572239000733401074721304734562307920734825678296138028607131645766114740649069203335628513414450671279580345659450906578828924388234728064475189687791477030622801575190796298406016146277830604926058909176591692205000574999075363574647105526825323848668346053140394400293026420517161867183088864005035586227435503771048172110996340160560468096194874499441704537013068473174485043164311133319784160417076697112003590604029541723699837022038119411505096289480364668701722489903603517635517189047679033642820145270012300322258019690746100503076328523225156894029247914387269252570277724173383219781302623043851190044138024656988047253486290231786179215409928302146198804368293011020113380986241199370182632655985365290501757648246891575398016118613971137532350142283781488919911901340954441918712107012680337455639782360111040371038874983600914536770047798856008183953371640317630072085534993812963600620901188409517444005182029541168466400041346944203544040900382101738007024829003394073525511714000021386980961555749100131496648398608840001,
  169578485616596500891327834029862965708710222523514722413085773547391424747590845751736412285455608242010547432051431080301317364080807320782121535760516846707614658358887737444074993508841363523130736603070637054292507143016776737648828069274580987518997860671716561339761113106510505390849203054063629112818816527350623684671649260639906021096188068035247058118008951044321290566446019445569083105534362299256360726053178657989224225370519053873841942312105044691585413769324048214727758159811850461003451575679574604445572892987586108043200980860300217300418599133552136994204035661243729755731038143200193145725360365561994674108366303520871800047220943033755785806439221350322637392952457271403088567052643354969029285775948474482210278845349848883193002626215468594830581024742506343917595860232005434711374050202151529483360436478020125634154282726160182898044658793553001763043708983353327016128865789892455160142464927993846493101343913770943744664012724730897463330680111101023656150730100915283984128670900008192150825264536950072164339266692570700621550762009730697005186480066981494640041371077562533704400383047024767205317003396164179158517980021386218666736019600131321220740322425001,
  247232331336776320891923230699552573208714709530614009517085110581063719485350838168569123193328408259273226255029422080422354996919872710782954317220525712507620278949573184876074136547961867502070729015978318890465307158352338036066252069370036355175242600672298194879043632806513973120216562064063831310825832445230624837126952484899206027513544798858734058152901397929851150568297402353288802605543942714363086651053226976727924437870511142740606894069504956039394089168401048267491775270447350461241862096176300504456032294691360182043245494365577011950411043510242064937503942992618227466906038171512828924564760366618192664796161103524673163171348735033887605593399930920323077179502604477703010266141064615591028329092627862785840271011964751985607802529796578438833548024838432143098288530232249758603401389202157430631144149138020139109508692596190183187986726016941601768899607520822740016139919310642896080142658955325878870501347062660355564132012771656673554051070111164713030201776900916063422944634699008200645128682528110072245453741639391400622214897497696165005190999484767815910041395413807593105500383993160000213774003398236569449457040021385419857547462700131147460940523253001,
  359538594304511790892778710295851146008721114576205071871085157701570452521190831157372019861719808183436740419805550080590674484329180990784104871368912145107627993666078335196074187271412744112820721228488552709834507078992991244049501069497676105392465570673070869800839988906518549839844048665063109643398685568630616338389063864672106035818746713649482058197764258608833960561066230490358903105456100730788894081053287896086186869410511440041438242236204970160677834701546048332723840632994220461534688144761631304468795273675331174043299457581557800190411264632290480714703951764903096003218038205169261206723230367865557276800946503529133293859734557033104126133643248520313586475071653618403011887700188321115028378603653499200750271156667452776133802533836584634782368024945944420242154540232521807114952330702163958540859648174020153918804854805740183504550509877005001775251429730790634016151830605807774030142866672914677915101350411680408602392012821238108119261990111231565615231965800916876200382156923008209444427473012070072328925075084239400622893779574397423005195588103300516940041419951660292376100384940068972169987003400290739203697020021384585326127028300130975348810095965001,
  521561683420536160894004915771424183208730235870149519963085224370698654152620831636037129534996208111718380570108121079824230366385072650785691020173747514607638560314448405088074256296419116945350721670446140616192807010671864120384917068668019186341375520674095378328504341106524578950162889470063144343177320248950618290550012114457606046548489224438994058255348814150270480561367817199374337205471505014332590046053364581693479590040511811862817751610904987707239673458106048413253992485804330461893846973460739904484348061637178249043364790683387084440411530610862562209203962248404449899484038245130652792312280369337004527378167603534360594230476349033122018059250189850314175666472494056803013751491489615131028435142136318953740271320838401212885702538390435539167276024106634582432649900222824495740159495302171174591915478010020170183088339995660183849961389449513301782137102992749016016164659202124442910143088934266175950201353971901258092585012873603470687023870111301712017596877100917723458649994141008218557011598170300072414800360049280100623587592754010562005200246223458202390041444689823747704500385887677807029317003402326733495028330021383715850371638700130804864438917490001,
  754743962505922430895758314664542500508743194907423693793085318481580180285540832307381856790409708116421094181425860079114760206240069020777873015229730573707653002924682272083074350033937990375680722266775397005024507014388805743450254068894915239792696820675451243225465767806532506745304213079063189677193373497550611082457773237740205960386805072980545058329138914444204990561751791682080793905490991328153331806053460964597380593610512276183887531899804910947801412954086047512528581943656570462333756915910499704410327511644654333042443786760429950620411850144252955925903974761742737724608038292522598207424010361107083085006736903440480364981220735033142829943819214750314856603820099651303015891641637015395028499646198980570340271506933481605163802543519199666200834024120107461658842340223161022386641322802179145667127691909020188033389656907700184226612411579287501789597142096141849016178468264124516750143326638983191013901357754912203968990012928886129431412290111375287092305171200918606368701666602008227991316151065070072503127121629940300624296521331823562005204974138220159590041469626983140641100386835913486469317003404344599578385370021382812194186418500130635988191676511001,
  108953466869549090888259669865722021608761563849123086733085451027988364579070833246868038822279408122960074121238609079159436804936121100771086837124828152607572702502984287280074477074149150800360723069802761605057707019362125735052051068119656570403415350667242301937620930906542912225542310819063248799335398375240611410820259227104605978204091750583179058423539030994048290562239873733433811005411560271849427053052581919195083367480512855154627275342604913645092889126027047634738879097250560462871839695015330104412627808468794648042539180921172840150412233540479970102003989680064740599124038348661822148414050361311154603625522303447637294466708326033167013357222716490315642794259895064303018346797339203053028573171330139970100271717697897350391902549290696356432835024135171766179965150223534892390258937402187944600568790523020207611465101780480184637075529204849901797674804117178316016193324785746074980143580734860434761001361772841493859784012987224707692597070111452430040641725000919526130657696805008237755922076462890072593953312377357500625020749352433384005209772132663736520041494761806232116500387784703849497509003406344386818043090021381875107728614300130468700703759050001,
  156907342860608960881181975346615713308687541713236842021085637288895144587690834558701059622142408132032690459714595079221030603473183940771497173147893881807599517786939371135074648904910653727700724149058214326767907026003752543938810068159684781516451090669603900529724559006556545256406277180063325768085395881070611835588212072506505910110610494164595057544108806924998950562859304160718713505414663899127196830052733480886775913410513576025141921918004916982137697737615047784975356903336070463529119121373370204415419825663364127042654231595105426580412693001076354481803910744458000149311037415086982391881120361551082797769697303455998293174740899033195085875660204130316549619709058502503021160686129463715028656904088770729750271956197851665117802555780186184149360024152002455602788240223949945537424947202197650658126218559020229070586368304810185084113498021905701710641625124125625015209299790367456800143852220055919219301366038376695316153012104876324371598480101533284508901660400920483974227494946008247859556864853490072687327307583512300625760460578227318005214640483963884230041520092943871092000388733977591789644003408326146617525930021380905327647250500130302982877199008001,
  225433994842879660881687506582799501508612419755609605133084898452961415883980836386473713925419908144593801023055774079305769796278842070772058142051333255907513594561810540894073880859818284197490725596758301885706207034856548968414584068212702838648189700661271214582570062506474375330773811883063425797253559947570612384137185184173905913049536910335792057697855166786784210563644196704842170405418571754217844958052923111956280391270514472273567471478604921104861154805608047969412550816376920464330933826238922204418804312616733667042792816077861338350413242952447675948003912857362387419169037493594173001100590361832861598318297703465755718602295648033227640174406766430317594581385419110703024382742046143487028752177294780699680272225855434877122902563071126263736221024170792298080636070224410385239233968002110835005288306480019252576381710929400185570692464333920501711587072186788672015226468539554891690144142145340798019401370564785647445790012111365135363397100101617998688223947800921481159130774035008258311095219485970072783297900471189300626515838458155244005219579461394822050041545619030497805000389683664264767361003410289932351124500021379903577318615500130138815876692665001,
  323133766014096400882403734595576944508617580540567816535084126384172677137090828927640249379595208161948142647338645079422110998187488130772823486781805301307518533353115579159073119336695549358880717534982241864837807046634636291093636068282797832337173560661679578475864879706497653778692879846063555573824163340540613091355934695511005916814803633148466057893595578604482000564637208544374064005423484804211679739052116002592880612490505584973262800643704926191162428666067047119553028313417070455307784747650746504422901777027075188042959542691483538220413900432361854582703915367547851717257037586277805082906120362163436161028387503477131041017144556033265354297112537220318797574195954509603028068803179316266028860486854786155800272530487016252264702571255996017573542024191753537998854140224920810010822394002112013649755179475019278307731589607490186099995278277842201712609071034607014015244910750823338580144451616429707618701375365938002139381012118204439771313610101706725415512847100922518975518377421008269119559696244780072881914297290977000627287066096799164005224589326333784110041571338684641565300390633694274425865003412235799297029430021378870567077640500129976181125676055001,
  462109294239904850883416205201330838608624830460133669616084177394591578224730821245315934932977208085874925035282306079581513775621180730773865577630707889907525216104033677243073161359072886167550711012504730077785606962275743533189742068375302935113964480662215143182020836506412799300602514976062723660244025570000614001637800760606205921630993662450993057114240914595916570555891601553689892305429652400852259678052145558274234699320506964447920875189504932457636204171229047147237808634767900456496341672358625104427856188090971858042115988230627600320404685540271476189003918346321624491330037695577634209738620362550845838272670903490379006696055889033309003244104515020311018119438361327102932281888744551862028983510385576896340272874345463539929002580437199398369277024215119706231439720225486247419001346202113311179631558079019306457721864663490186675435567993807801713713215569937752015264710824717091320144781796393703881301380456327365092770012125410364988893250101799622275434983200923598744392401730008280294121316200840072983226112327439600628074326223745773005229670332266796310041597250509413038200391583998879918461003414163804572038050021377806994445250300129815060302464164001,
  659354366090446000884844288145040324908634993119035618799084248456386652818420821733409912163719708011879552480543864078799476563447562250775281681306414053807534241114344244091073217758667273381380711357973608341684606983009051932052501068497165305842876840662916305649474463506416746726307448861062941002799687074820615171381411652329305927781643535018628057145819596559584710557473782185616171705437383492887736800052182376956225017130508672272688379096104940167648289970136047181089088477983960457940637309234462704433839341892624192042140032240126538180405621961470130606203921877186718965008037824332807169769680363004387448487726203410579236202380358032359472038208379380311177108418993331002937093064098055324028112312781261943220263262166540552603602590728050018834194024241147583987998050226112190671364795902114738647856128857019337234657756499130187300672611731106901714905463971153840015285958081523993350145133908157919182901385851094046843759012132999647060921090101896851703479489600924721818025498752008291844100150687260073087283362816658800628877801163267907005234822724796447970041623353092991001100392534510191908930003416074007067788460021376713544351749200129655435336451014001,
  938678904163714040886854196152698753908649208218069149241084347243086621168840822407760105996157208016399875606668256078109691957424792430767202277683543974107546406009488510424073293312450833066840711817921577526772306911044297307032900067657419116564004630663832688237925823006421874059229638123062122157307857659570606672126301218487105935624178197412025057185836975666694590559466426822933630005447060336621347287052228178504334881920501078369059426698704849641026106263159047222426542780618420459693482223729579904441056001760863376042168854733471185040406737576566818431003926057825578228176037975843917332706040363534801556952279403412370720938945100032417770444353229040311359631768457156202942582402928677594028128144413698637220263699219862278115102510225384613303300023270119332030425520226804638030777378902116308047712363643019370863141936485510187979627046348551601716192159475512805015308747007944448840145509237086094541001391566048434050364012140989648300711200101998581090068164300925889580379240259008303778965878758340073194136463777330900629697672804320466005240046741651609210041649645009103524300393485161170698359003417966467388512160021375590889356321500129497288404369570001,
  133337147778661040879676880415599338808669049614728504837084484286140375988460823337540121908671108022594291247492918078150202750155897600769802073006369293007562772195010916538073394338025981551490712429172881958444406914667852850618722067867792750526009900665028315035283291706428522903432465378062158317613171959510608594478858821538005945608494000187519057236471431984682210551197232234618575405359155239218872030052285074838972906470501339052686594248304861265673029365983047272840864484739850451181813960292276204349749944610940580042203364906330969460408065169452700735203931002389876007876037115394418916263640354154484821950744303414450907420622868032485049538807961940311568983234450720402948840056756921461028146081458145954320264191364818395115702511515304293849961023302344797844979010227570135250418323202118032385380169536019407585220272768960188716497452177067701717580052175798211015333177514043842220145909133654170569501397617694991242266012149398375242310690102104982885702261300927103447521429824008316108338316901440073303836222757601400630534122570855934005245342612699054750041676124817503539900394435885624135994003419841247790250710021374439689862702900129340601926610482001,
  188987431071395360871363257923462450508596686278770444504084674010389949989690824616916806081575308031065998617539174078205270038823319500761331455760234368607484749529927887621073529175665731927720713240043994628049506919445555724425616067114348697728993800656585657455120570806437130595071361567062204846714240848260601105302067613471405858300048236498015057300444112031145130551511907927669336405374250979042243253052355655878328356010501660469941989416804875511472041897235047334247105118956750451439030536747444004360211065338132255042244637319881242090409643248859431224403936844141195270997037136308105998384040354877731840728410703416863977169479799032562620345500066230311808891143868675202955967442845036329028166387234532979610264745111909769376802512957853022824319023338164014210034990228415821236423695902119925757505695181019447661598918019220189515777855766700401719076321871425224015359355200824474520146335016215150068001310402325690328017011158244496929515180102216234707132054400928364868042246586008328841987920880650073416433834499803400631387331392464552005250710559956947740041702791064438782600395386618205321218003421698412121508520021373260594331103500129185358563598784001,
  267284548377253380871916442599355883008513510129720461973083936134365858204830826373831937187538708042629562851358372078279980747403592410761805121474675765507411420736846085811072708816593561225260714313821347761943306925734094998973712067150417066821938430658610779040875893706448256153200745936062264622851240280900601419243631434718005874408508028991786057381149344993523200551906490810047904205393065678557318780052443093577154991860502056244237564751704892946910452508494047408948061955872410451750044673855544704372783715586938101042293940603523099520401151700079866801003843738493476983908037160840959290879460355721010354264497803419660517240090307032651974780676972680312083572279186633302964078562681994356028189355921771155030265367689978704516602514569902401918275023377949903505392100229349477157655575102122003434095685916019491372936595512000181038227619363961101620688602015955172015387391638760695220146788373857473888301311080070136875762011167547363543514860102332519444534972300929675323469106440008341989836259608550073531980875525338300632257479675343994005256150797610146840041729642283116076400396337294410105585003423538025765341080021372054239486434300129031541212227518001,
  377211792080863230872688436879832902408518838928701181251083129756034107471640818781783206728983208058382911887657260078381149937338332890762442682230029153707415361993185185438072947720494614679140715733258951179751906933997060208945884067197525287096562660651123986813366967506362613030159325210062341297173801012840601819515260139327305894823248059967758057482815250034832230552400568936246531605311648306226510466051551267716710587150502542938135216376604811425893523947232046499709519710616790452125656116265794804387876481144988907042352770903139426500401373939166252331303851866515098635435037189589934097269710356703274143569092703422898397687028778032754809173394346440312397792006828605202973301464359410603028215315932111528370266067119852568775502516370058142049162023422111203067960200221037957923525963202024281947058937076019539021216115545090181132113378181586701622425004804241717015417404657648536710147270769359180031601311796876555457121011177327025370904770102454025369687678400931036328680126163008355561956460943460073650529298641824600633144747273603090005261663532027288630041756676994159934900397287850574401084003425360155582801820021370821250522909500128879133002347346001,
  531224685502568760873763578950648598108526215951367443469083179492064792839830811207559976275037507979803161924651389078517891270865901280763299272197253261007420625630145541548072126487748971423600707606385566653717606944835992292677968067258950543164580960651464752026627402806381110382242619102062439494379016849310602329084897423593905812065727448305207056610701261528994070553018361614822598005314558921941224241051684917808397622330503140662514016558404814027663972800748046609849465069530410452578742767583983904310597363432942053041422890820709566830401637244459326736203861438956306823586037223245649131423150357846318478222327403426643762258881754032873050658180260530312756931333580283102983779863406648034028244633628069414870266852294962092154502518378824868410910023471095627913869710221151535545848071102026779184734264471019590931199336196290181233784583757168301624294147443735148015449518648128870140147783842240144467901312554698322187927011187604252113715780102580946245117106800932449432316077564008369568573629327700073772131427374749900634049313460903873005267248961779607220041783893706065475300398238223871303636003427164869857753830021369562241305094000128728117293311350001,
  746558286469692620875257873051478422008536408125170022977083247800176041322050811657252832297227307910887393054126813077702370366052355320764448049045080682407427642831380197309072168518541565026080701007399073169875006859030170341622567067338912960211304520651905722326559862006310490500157416740061565063657632018800602976828075415130405815330150196405687056771340740023212370553789774519275653105318171721458366375051849826311896272880503873806877235364504817199948901737439046743343753366323810453124643455778279704312764853464084032041506374702270802720401948871494080264903872700876598663020037262606335227422600359175183566013670803430972146033687188032100888676797363980303167061634875731402995674938013283921028277717414012654000267733069540307092402520618785310266291023525393288221161480221276684648771714402029514492762015536019647451969971005230181343828310162898301626305179655799279015483864875250859420148329311914729719501313355571203365474011198400552543033130102713481434215058900933916217190718339008384020065235190650073896839950325772200634971356902446170005272907277661450220041811290915645613300399188352308037658003428952238243002490021368277814565442600128578477670573982001,
  104701376169349560867330567057390911708550462019885542598083341434028425715030812270036691499197807914825418620073131077950797962250309100765985916774849253507436981346883103177072224123313812432310701331925972001517206877587513053822559067442838414139599420652475461130616535906313546656922220095061725392122537784080603798995777801797605819449173489975746056972838574076567930554751686190781651305322650115530053337051105303936089802780494771913881502895404821063091635533516046904951126325766960453781608072053519104315357929333127543041605661258053996630402317299426669182403885936956643545700037308593750840095680351071861210717355503335969735263842394032116479859033503020303635027872806185502910916731604321907027315022237264794370268720355055983935002523114795018978057023585540380103279000221414497102103923402032508781674512090019708958568841484940181462871461076389801628467812454249383015520581804450329770148908980947195169501314201616155402069011209738194497691070102851836012300634300935438300699387884008398926961476047680074024707915459862400635911055627298383005278638662712447420041838867108472547000310013817472272986002430722331707730980021366968562098409600128430197942343349001,
  146539525541875330861019985037141229108469803103862217260083469538077109268530813103493511351333907920150179577262198077128473700076726330758041012625097912907449387486296047512072297560590739870370701758015492683247406810180960037231464066577692248105672870653210419474368573606317465953011152243061929795734353783930604841034335505021705824639121769562076056122523577034160650545949514727285337205328194164223791850051130313236298124150495870725378384694204825761826842860914046110036096699915400444571326396540418804318456706613254134041723614643217447810402752427647803668803810147759059393067036362271326170030150351250956778480897603341734786415313557032134359788826517440304168541202504352102912445927284597395027357054536544386100269826225586691705102525894193839685225023652123169404555330221566159591640504702035784641599969521019775853726374606600181591583167265916401630792348249699027015559815440325552150149524738412250292401315095042194954062011221640225229442320102996220878614354200937017335225756605008414299945609243330074155788724323497400636868587001078516005284443292241294700041866620759313501000310108763078101816002432475222486192050021365635064951170600128283262136285975001,
  204682745376129430861416409890344836908496369280582878249083644471133258278520814234989161304985807927336898019754283077173281994319125610751078248566198013807365840641833613038072394386086999767450702316530196358831806813337460688749319066752402401164219310654157044682731716306322484567948084283061119000621800063980596159838770867888105831169224077616414056154095554585231640547439123335532309905335048490379767649051161052922628799760497213432199280762004831470024765870828046133636774316677320445519548732990587204322155739408614842041863595292301900730403265802434384089903811970586730027535036424864830552554590351458582233242812403348379223282380998032154846862905356480304776281953714224802914177716060675736027404377678761133740261106403289151026102428987035449152937023725782289517974840221732961137861018402039366464494405118019848569697354715440181730677309671244201633289712329707030015601719678600902520141017856336315887701216038149340260656011234130492095918520103146852869227541800938655008546618260008430149854256289590074290136126195990500637844127698988765005290321333851111100041894550332560746600310203666097250361002434210984027656250021364277893611042000128137654496283115001,
  285326367363408060861963057442933458008413279022097385458082882905867131187850815768285300234263407937019214511041434077233300132662453990751443324769883988007387623966335704851072521836155169335160703047434139784910706817444292340667654066978395123208638880655374434412171679506328901252178513384061152077671988324960597826539146582550305839374104053481006056193534846001054670549289135224328778005343511836326833088051198788560127955240498852165709559014504838396319793407341046162107674542571900446656813558292980804326566507618449362041102954198796629630393870877992831744403814106556318631105036497785894409975740351699061971827732803356030433152551263032178301341075235910305468014070475665002916137409185798784027457617928634874470261244853200215638302432426336364946539023807217375565939420221916301153763865802043280574336857625019927570203155920760181880915173645085901635971485766146728015646456671676852460141087252840982898601217033331624704262011247233663602605140103303954870850091400940353044234615280008446487677678763620074427804212176223300638837853679206706005296272947466330640041922654282655875500310298520660704989002435929690947571070021362897608189621600127993359479237928001,
  396960036327316570862715412346772697508418262776759696926082120729414316866930807842299736185149007950040536775716257077313550751075124330751928657322898695307311641584869830466071689321165498116150704002396211090990806822779147516138202066127027225632536480646937672417677459806337093365644632427061194063415440357850599929941505640239505849669113869745233056242735775215535960541158374239580622105253948591626964286051245054845385462690491084977594805960904746790781122726498046196414648446781680448019299790595884104331820313048242152041122606685769872930394583316844547201403816607028554006517036582658758003074200351977342698383065903364833285305590377032205130532649577910306254712196592419402918353290181208258027517470999311156100261399601821410324602436248345929508466023897192058700067830222117698076357479302047555365744916963019101335248690505140172043108240119133701638849939802674113015694197208172818810141160880340934965401218083080183601223011260975250794975470103467755935519484100942113202058788771008463324560025741770074568847409206840100639849940156636438005302298285361088160041950931054508343500310393320981093898002437631418979895560021361494758603741800127850361751932440001,
  551195527013398960863748926603333141108425069764103268850082164781653373228570801064269373708166507867521564154826716077420669312244577100752572767581936963407315440812184744234071909059365345996840705248115275501084706829698428437916736066164666627351493470648942015327639151706347536890975331777061247281253225001640591258077171025476005762569136056303312056304033039990575810541442610966744436405266802682336170076051301710655642814010491328194911651742404756952810136353218046237707398917095930449649824037078666004338071648371801871041145856523435269450395421335178147185403819531392293673404036681350664897287790352299078238025936803374952397676477414032235794586235588620307148702708616904802920856941638021398027584709236135460780261572447642641896902440492838877262295023996539345769658910222338798608262355702052221451490138042019110644948725689510172218121119662803401641938071776652856015745121106877513300141238965927146115601219189986415227829011275381629001829320103638491396153555500943937278382844513008480671799552751140074713320474038140000640880561577022523005308397492189062530041979379083908273900310488061352288752002439316244930632870021360069884753266900127708646187933755001,
  763885464040636410865166018273880698508434349919425324590082224497156427757430801441717287622469507890948937741832561077563407479334429410753426170869421963007320445858011685745071119688998936173270696870561002024748706838658874536282813066213131820952033520641150814031384180006260831372795009279061314640929377334030591591690286147423605778711608919543305056380300462105954690541794249522611595105282614286484585143051371004915422842160491623972647839780704769240480371078351046287353026076643310441159900634999259904245502112470192257041173334259126163780396406099553974656103822948257965708266036796006368994150060352670725267311051103386574680316859563032270812948516917180308163820122234308902923683605512689751027660189490035972060261765374385079149102445203432203868198023110616741118413220212581387607910694002057311819416412209019120743213670293920172406874635612258701645249642631400175015799417625529591920141321747188147126901220356745217082756011290480059930799800103816402982949125300945827106561028340008498540848812232300074861278487133725300641929891591429217005314570705014735790042007996797933528900310582736148993003002440984246632465380021358623516695800200127568197864548522001,
  105663246862738790857105458534381907108446978851551956512082305300881052857800801949565808796477207812229143674144367076753289115045136770754555004570289994107327028746443718211071157331475678639330698980374650657128406850244947295311127066275443469715160720641478871354723816206277730954510426259061399781608064782510592010978615633559005798884689776693254056475071077015175200542228723275838983505210203992820541767050455655320250069740491983249758562019104784081572250754563046346975430868799080441392663165535204004254324956538527023041205776107451090830397562182204309729403826936819354898403036929087280733878500353099651284381751503399912187377655196032310771564324541850309315580432975461702926872580098904122027744861741572281800261980568718682051402450427928174548344023122706582945629720212847398668959160802062861999288825450019131691179058225900172610349062662163001648799216076149425015857285884859629490141409472614315481901221586158298383152011306298714116902370104001738940608413400947784557331504855008516943314815519270075012776846520109300642998103031087626005320818053346033810042036782615351072200310677339826317585002442635502900533340021357156174818356400127429002059824942001,
  145882139086286990859754940269825017808464134139425679824082414447326591078900802631683358517399807816415203619076666076100546383939166910746045721903221943607335673020921444709071206482994011661630691171973718702351206765203456249700447066355439402777541040641897660083094317906299182952776104480061507248681886147030592537235238958496205712406166070492409055592683002171005240542764874840213421105212587660653464806050558942325474875130492419155342557783404710198659686840910045418501554376608190441670323818819198704264790357738878528041244040850837211210398918083139379911003831588406207608130036108341584127129610343594256292025617603311520531273326199031356330897557821160301062137309900620702830467657137470190027839778541655989950262220439544243609702456218685433357914023136031227866468860213138925431759752602068910240125973437019143554279321884740172829587527532803501652602199452682862015918935308332683300141502402014419865101222881137569786282011322866693724901240104194754146374689800949811539207134196008535890959166346210075167871261582348600644085367882613142005327139659168307340042065734947012602100310771866919344380002444270093489287850021355668370006048700127291044249601559001,
  201035115267711750851336787766165476508387396734037426621082561621076223770640803546303107747420107821996657828637307076133981591708254260748011155147784656807347006207685281956071270562759126005260691527109094016883306784487279911483238066457988808753752010642431511734900032606212637573818015082060642711987731798810593196870847221471705715544291014193965055738456411222424470543425681922479141205215509073710526211050684821240332790390492947429985897580804712356415192421120045504215586041462460442001196904588730204277191531288560763041289129315016356650391050682835763342803737008252961161193036126222578374684360344164109833176772503313272636810411548031408234860465236590301210067353326714202834517602826640064027946105340261350680262487638966555483602462633020307767328023150707974691850880213458233672067585302075497698595158789019156402518787367300173065699578551055701656674886369169978015984586078039036330141600806944677813701224244708611324005011340214055706186140104395710228858408800951909998863542280008555395698165899420075326617746807837900645191857263594735005333535636979618610042094852196244491100310866312042678175002445888099050418260021354160603807838800127154310104602036001,
  276530070342368380851828582298128104608311888550238536101081759729123469619050804770599463472021107829426293982645493076178240264000654480741059833610054828307261841451279598405071353976510127596160691986819943562085806710931049454692751065589260791497243220643111080615625364806216079809121979355060813234791450518430594022602227528651305719450709780969647055918907999879653620544239131959312052805219085282896903026050838055773671119750493586924893438369504714953900947063246045606822453120242490442395072844068995404291871807934623484041342206792374394420391236665468320214903743317512070444984036146921901896673320344820105202264668503315278358664027781031467320747476630710301377527814547594202839076686820262827027106513178014392420252785085094613385002469733640543348968023166864427585239530213807774214607014502082668639077403850019170310757747235260173319864931215091301661034501163357287015105446960718903430131704971150587558001225680014219532278011358371835310757880104604875687634772100954081921524383128008575469602889457010075489072615480361700646317741398559154005340006093827296310042124132759232037000310960669889987474002447489601091833130021352633368599412700127018785487575209001,
  379684009037113770852496832863895696208316143545186819454081102594454322243160796406682497288564907839299859290682531076236731727746762450741399856803504707707281230835807025708071462392808228618200692581015271401740206714121779279948162065757060637524361930643974934861066910906220431269063790865060102760494365459740585054907214489759805724307343875989523055114201058987012870535239274875781005405223457898831769491050102437697042116390484360192570127907704718077340054764588045729522109863541140442863469048939809404210923282203244865040404628837301250940391454179313003822003750655543944084147036170862996969374140345574632858920966603317572559943812684031534530279258100540301566956416252908902844205263651626542027119828403869785540253115986814696610702477589113852128020023184639327722436900214190196721672456302090470646037791932019185359014335056800173593337397049628501665699245258886313015112882902967631720131815191021797336901227190318034751113011377372069954823720104822526013593283900956329331343689062008596124899234638930075655292473326481200647463189595310469005346551129345722240042153575025398041800311054935233534872002449074681937649200021351087147743221300126884456450479605001,
  520379842510621630853403266131612065708321883343215931228081138307904630112320798589437358059339007852399959732473255076313909829035096010741846037829638824407210653357346206646070603094387661691480693347907816714336306718217177858971086065971250314034525640645071534895438642006225924698507304837060129674207885478510586343803734580177905730337743514660826055141750701704717760536467488852094086305228798054027292512050125067217094900550485294185144033137604721829203743824045045876096381865589260443419921552926952204212974397620519730040477970915548052240391708336423862237603759182519456016921036198529827423541850346441775294796684303320194643741171534031610921873004443200301781077665980462102849970411398840878027134713830763477270253483870692724189602486274373815702148023204183446084392970214608364409612400902098954849366350100019201632782954969620173887449003301435501670688345480178845015120791970718217160131931776060277851401228779008249565463011397247823444418750105048943810019690600958654291785210124008617373967941334100075825334212116350900648628370221647531005353170835795312990042183177377775737500311149102923697305002450643424689192790021349522415745743300126751309231711867001,
  711943307612539120854630653198304724508329612934963221076081186138520781732890791149676066417163907769753063782299528076415584036036731660742430615118393578107213950308159012044070785424340407052390694336250680057010806723466259561745283065124427361276707210636461690517369938706232850542086696204060163419771543936200587951022577383711005737816285377831048055175728923182912660537974000548855674705235312329420040116050152520943512765670486421079129380775904726331150165583959045105101039320672560434080323711610955604215395337213284844040564062454934048750392005040056711119003769082375410958146036230475088708865060347437525851652045003323189111636967416031697684266264513460302022934545700266202856446632814994531027151343550718763010253892610173544814402495871265851000953023225660541432274910215065369748838252902010817616338552614018219223370049444950174203614311273288601676022104393010440015129200975430216010132055049362065675101230449601399350009011418033210555371630105284418914390360100961058905998641486008639229344583345860075999255003220977200649813450682460216005359865298102665010042212938193376074900311243167888476803002452195913186972320021347939638412013500126619330253378143001,
  972311847712463700856289799409676156808340004643277830959081250091918480540100791536290632753487307792703411493824704076549320577586475570743195345610297161507218239802394971624070102135195123607090685608158060394020006730184542214023662065159181113904532970638221608574292400306241570787535803122060205676871833464850589952657944611395605747079330794856791055217585565577425790539819708989017710405243249825301690042050185790381809102920487779248569106759104731727472662257365045125953091634864410434863319217959360304218250042376511085040665025918457797190392351101346615738903780566168264015141036267329472314276960348580034261686366903326606186910064193031796151633890043580302295923477178633802863716624585188074027169909733906099130254346457256799095602410646913612301435022249248387752289620215564551205918753602011819354025233453018238228248019308080174543334941349027801681721952739605131015138138058218469650132185348112847666201232205746235874453011439763421969837390105529248520858841500963545317192641434008661703719531830490076177112291128027700651018597397205961005366634593901822430042242855843549404600311337125133002170002453732231973619990021346339272997467700126488506118607957001,
  132559011509478700848528795111279467408353952122280594070081335463345371021770792049585901056616707712300870039793404075724958923096851880744194235750320906907223812371415376664070132618929156627260687242657910016864806738771269087059968065203359621251792910631044666848848726606152536020796142220060258524893303746540581244239711777337505658538747043183516055269086234710129150531207837143196956405152910588947229640050226063298678165130489414412139012947104738189142028568939045150786434288175840435790757743640952104221613039957549120040783321603966683750392754372344959777103793875876880648576036309812112354472480349889881981695564303330502509479162313031907820351092184530302603832878401201702871872120845088281027190624379039695530254850076841741641102411816546647545787022275139875708211510216109511089370071102012907023851648273018258751428141902330174908204313022771001687810504038818347015147632746117970900132323024097658560501234051227684918593011462474749569531300105783737303414228200966115709004541855008684809937890601080076358963786918170300652243975777767677005373478793576636860042272928694341553900311430969739022034002455252466257762830021344721768357147200126358823608909743001,
  180411662938700030841154523923319846208272641320213832579081449241894574629990792729991686693172907716296378291146927075955275813004698790745497033508340017707231041193531017251070171949751716522910689340160529766446006749730952633605968065259442993296683420631325609372063160406166306412902487689060324534903632173040581553545129895874205672698274082266986055332378650050231360531483922034040241205164655649024821967050274761095050766230481138098401592882604645918540689863208045180331738354138720436888222726726966604225571117482661249040921798968153481180393223897591854517903710928871123382323035358742356708820940341139039072371501203234941910324474942031103436757017243690292950885654427024802881014817604209898027213721220963629990255408583946970428002413106655864766737022303544192902745550216704134563936038702014087410763027125018280903853366073020175299912608511711801694311611423735182015157716010300409750132468444224965966001235989970888838635011486204612085700240106048197539690508800968772305866655944008708560999403380550076544867461704006600653489750206693726005380397960304187060042303155106844359200311524696864389792002456756701878812820021343087565092317700126230269681567442001,
  245120517446619990841560236571947763108297643591686979033081600638004619899900793630500207149421107721556034347617625075125683777937382650737193687282204791307240404930122793904070222623156265750980681202807192768652906663700290168084673065330544245762282790631679872476025577306183577514462211894060406882095058366480581937333446812782905690173313809886624055410072432480529560531821009321153283405178918951100689691050333583017346793780481374366319762510704655155002142477057045215448407562501770438185642204458968804230225251370578094040108375537803260200383770086673378723803712712199073719338035415053021232514450341310796794919048503239996273917302784031117767179436264790293341785996440947302891257385264189387027239457808436290030256027584025427826002414528827125456040022334688088025328800217352609901477587102015367788924183597018304803811896454260175720251968804339001610125042679079664014168420326293922890132621991065419059801238026045335018315011510991581105770930106322949235405996300971517373369087547008732970058333087370076734881540033517100654756084015821185005387392150099218230042333533437540634000311618301742540766002458245025272653870021341437095694537100126102831467077403001,
  332477547726026040842105028591268880508213103768667948483080801770820313421960794820464775559174007728469272500068459075165109412227939680739400031559372107507252516687203673406070287818403612314840681546783611810538106681481748632511883065420565828220417700632126014481366095806110521192188444274059509483074399428390582412966673556564805611171483160500434054505334950200620100532232117194414531605196221540275646057050404558407558592620481657930161254439004666181286741863764045257146321322298910439717995157335463904235692824518097492040127300331159686810384404910519355872303714773866347978737035479805303406564810341507249349453272503245746498040360070031133983564946637070293781770895640081002810272457701050202026268117766106297960256713216610358500402416095681322681493022368817224254282880218059450040059700802016755953614038638018330577372514340840176171121931274636901610865346233637773014179779736258431070132784063405539224001240163669071130261011536875407436526680106608320249411616400974353218618949263008758050423313260460076929064493260135000656043139465282413005394461411859574740042364062038643645700311711779681962126002459717523438217050021339770784687222300125976496266625076001,
  450215412053876250842835392691778587808217556933103226074080106856253761362140786390515838830917807737542286583589453075216577621434115670731226502697651570407168160696520564002070371580414376542340681986375884850432706610408541867646029064534393643494127730632687146469633438506113227810691774083059637163303510159850583001721406064109205613823819375234966054622006334518898650532732944591729510805111718839742185942049490108394793929530481997909788690227204679331145311313773045306611092974948990431152612761253185304142110174615366144040149394716261814880385142124539693263803717155354603937063035554205551522837610341731775193653378703252283561316127174031152321107275291000294276666814115963102811555444148818219026300013255724847020257472202544184695602417820959764107468022406197627585964160218829515526443751402018260254976055229018358358842618275820176654535118277457101611654865455857397014191829913369806060132955076816632774601242407213008123746011563897047823560500106904646419326584700977282190595896735008783815557171727370077127475032881276000657351077722896133005401605787412590180042394739258431093300311805126065655883002461174283904899830021338089048764759000125851251549600712001,
  608641305237899380843812972082008723708223485967128579774080142190036025381870788458913897169783807749432084402857564075283668652292207100731597996731121194807188338712532453181070479048609717463190682547404944044472706613278110984013112064678137248625599740633392014054226400606116609797532647062059795861083232202550583729641843314635905617085792314430912054764737357198346030533342403350150532005114256840603161085049593118665413818420482405117117579473704694998145455204821045365233386355439920431365769477835405604149635520165289735040175167095425384220385997522079727039503719904037289690101035639624107298023350341988191579022830803259709709781414707031173042715893576420294832951993272642202812989964885110658026335487652762707510258311895059541556202419719616011558887022447117236083339700219668038920967839202019889633719279160018388291250004375080177172623186431447701612496543080381381014204608228366970890133135464239207832401244761205311846690011592098692026664060107212271687739882200980306680503888568008810279076726625530077330172103847378400658680058843942767005408825311562403080042425563441573644800311898336350595447002462615394700832270021336392296929196900125727084951153539001,
  821472532687261700845119371328756740608231367714487868151080188914396127153370781117974764179870507664990199724411437075370998277579079850732079017216183714207111432862218340712069616744450668787410683262462109130081806616916311360940098064859426875536142600634276327923069790106120830505098362195059992875781457730660584628572293951618105621092954389950223054939154544740268940534083252081483092005117325800896239575049717025220916486930482892357816245093804611364596232229162044434642913767346710431616824777815977404158452317521377992040205203843416646760386989222101952155203723073975485021552035737616463878423240342280808516335252903268139774961104817031196442092519736350295457824921761049602814592894000341682026374918455799371070259240335000058165202421807914620586071022491887556371839240211058065074773336001921653658868810009018420526849444391250177727643046593253601613393477843979914014218153818316898670133325676583179090101247230335884199343011621523790250709620107531548228955570600983429122119081587008837454752554898280077537214877843308600660030241751324328005416120012138165930042456532929458038700311991406067176039002464040944321974510021334680930624573300125603984269783725001,
  110693633717793430836862455199249469408241829155733798231080250607838582554820781475349841548416607685318723498376081075484509038178060280732700981681248133707114775838659707508069792932276267017170684172631745478927506621523061760388386064108778027919416970625384398479272192806126091557936766623059123716957122592820575737405605747199705626009990846754255054115205771033875830524982850476069931805121032921023023407049865915347974091060483474784635540062804613582036636058103044516747829730346970431912248615687284604168773109409234810040240180721237544480388137995477836954603726726815733776278035849947007756301130342614489007491177503277702637110669956031222847128124022430296159279529634602702816382870963404316026418720447331511100251026631048793269302324103537250825376022540845434062070390211157340707711795301923562567668802054018455227655158584430178321983364830500201614348931673818284014232507657653340730133526183344146152001249819460934708613011652217080931497980107862836576259941100986651992133774638008865356508733404960077748662746544129900661401784216109454005423489910043118210042487646060504807800312084330818659398002465451021702005110021332955343868899900125481937464971616001,
  148921537874743240839184583577823238908255693455812094151080331944043679862530781944063511543846207611184202848797775074631841095739214860733504071645367575507119069920626687736069101807155978051360675329638988841524306627348743404474026064137505530080768220626771141795414534006132641532261482255059153973381666393780577103591079811145905632036766454413782054141165603197076420526074056042115567805125506268861426477049104464639008747170474170310836043413504616216317588421906044613780338832205570432259570028499078804180843933456907280040280875881438745790389467634804495160603730932802234941554035978615642408654540342994716228519380903288542848624139622031252623651639830150296946187723676402002818380473448453970026467349126012908590251139942136599079602326625696646776697022594354945147686700211265281883190851901925627307745521608018492566000320651560178958171355011224601615366337155232609014247712631545973000133737473236032549001252533607643400299011684224618875932530108206505749688191700989977810496312271008893998422552762510077964575314847067600662794842838462606005430935019304491670042518901170480643100312177106280613177002466845716183005510021331215923383864100125360932654843488001,
  200034468119051970831227336187222096908174039763191649659080439018237074377290782557908479559993007614639845915935642074822803834578360580734539608845410389307124578275912989643069130538304286285750676798524184763904606634706553536182587064173600752922760550628504538453117667606140786539257763579059191403348088473590578784953901283589505639415583087987822054172784991934835810527396289151397132305130898691966367088049125898533270019110475000093509295333004619342848265551210044728349454394867840432667543112766533704194949368337651231040328184675889762850381100537325272788503635771917174901187035112588762375257850333427668418593888303210082243405095855030286179564409009890297828389930867740502820608405919031353026521304431793363130251265014876379948202329395259019002855022652809415813041560211382588291279977501927859581642570546018532725124773295290179638879873944290501616449305287743396014263813611657520820133960054840374395101255377978915837271011717593803755802380108562933384268138700993409140746864596008923394724204076010078185012394081545000664209573028958290005438455347124214490042550296592805432000312269728200345286002468225117486904890021329463048722280500125240958113873391001,
  268269739707090590831637565508468510208198280757482081314080579768223752864700783360665334963217907619135738819720455074106997480055889580725873057351307710807131634854716585580069167155655486759940678660969231196151106643987790123929134064218897668257497870621066864415565972606050903115739972143059237654559894759840571085188817343740205548439881922094774054211256722131891200528996796776370137605137392435358673758049151577270190083120475989098117708378204623050150487435830044863501979341420760433146337862907248004111141830534695984039383136503439947710381278235861186628503641335164550219713035129432697307318830333920302306779027303211472288474161734030323969397450624120298816794373029586202823091705299976300026581134786975169020251402993016059892602332434875387771932022716633578490005640211510011524363916501930271893845127349018575899792175497790171036693483032842101517601633538234884014280857534347279670134194457272549059701258357958231180415011752373408954349250108932505858718379600996948590348998431008953559796438703480078410033995199232900665646128990278936005446050893930392410042581830658854029700312362192396333601002469589315687696100021327697092393323700125122002270620403001,
  359223742996015120832181583029729933808113026307261838230079764516798665930240784408976010789969807624976846045419648074138945937665757910727587811628602553707140662885461280241069213763490489340420671101942982906826606555680741301995776064275673046660208340621336727186633418606063453908303088441059294741104125859560571338999756797393305559464667396827479054258016386135390920521093215057349347705045204587171928393049182311484086466840477166757333542675204627442047475740296044102279293375837660423707759423974345904113063054472920733039446913964557544890381483418943010578703647726014564652933035148683387223067890334480445992354940203213044736785876970030366499331958028050299923485856059085402825857965170900574026647441477858120440251555124034238093202335769122484884862022786285872427121080211648358584162364001932877600414963206018622296937846223120171114532291909751201518827314200428403014298893481380317950134441230865235748601261479114584117670011788613610764695680109315618424577997300910059881101695755007984508174201207660078639700321945796400667104663699296625005453721653429525360042613501698252754500312454494757651357002470938401184362030021325918419985600000125004053705500762001,
  480276936908870040832901946988098790908117239716353509113079100666957574121970775776021538069759507632555162671683461074180185310023172420729789970324632375207152198063408484507069273011632245068790671400226288083422106570394002950157938064346750087916388000621672849034042540106079006736006738961059365122258335548700571650327173546048905572918981311369743054314790078984686000521327002111423719305054593494756792484049219060927916046400478567739273097794304632640202817783196044121036682758120620424365499794813025804115302432898839199039520874623188733420381720152096450679003655062027602619796035170668648903036290335116902286658303703214822317135932096030414332727018648170291116184492220616202728937580025621372026720883403403615160251722767867645705802339424653844937669022862260897477960910211798495602267560101935690961363064971018672136348614147510171197719969308649901520130543069980938014317972763202511040134700947869401362201264747207521495312011826366017939138510109712675335744940700910436249903857053007101625454423566420068874071764016380700668585328889538021005461467612659444950042645308039170704700312546631243388544002472272464674549160021324127390288070100124887101148594279001,
  641148362721428290833854415298064155708122782501881279035079132361156089702270777556223016923668007642373880301393141074233345913384303270721261434482849501507066917587469721081069348232785336227940671777008131377677906588885229847417554064435625544005031670622091011411918575906098257734932394222059451797680880983460572031790334844653305589320815693080488054383651125190648240521609127722845001505065866317410723671049262960866077697060471023284253476262404538787063263738907044143105137428021520425135426563593810804117910493992933352039606575713124306020381993074956120499603663476678902419242035195758772801045210335839563625093104503216830440858608731030468096202434973940291254667828381498202732364011260373005026802182219221450400251907406315439582202343430361754639914022945092030279842150211961351785744833301938727195891941359018725651376029093720171286589798428500801521515728444744596014338149004842409470134974203173106298201268168192274473739011865683701588178910101012408997839978200810824239559370710007104881374466548870069113208890196382200670088275034032032005469288752042931890042677248008605876600312638597882069636002473591597128925070021322324355408890400124771133477484553001,
  854618131366948960835111935689507375208130063645461331895079173785753932431060779871242643121371007655078078745567720074301782661334314460721623201271378996707085676476504723734069443613429674200370672252362111352698806511209654678212175063546625489370221130622610639633315610906012205942933202833058558422273471601640572498687043487922305510929492402807535053467087483899645650521949246776560410505079387909201351379049315352956180508280471221003810041719104546049266829853674044169046546540769100426035913873614946204120945450246585284039705802167528675280382307478509314300103673121407396049835035224371745396611950336659539768076340803219097500831843749030528486328726257790291409436153223469902736174076680308258026892127907175889430252110653168334705302347817550768135507022103535421247980610202137923599884454401942002540645114171018783089684338188030171381493668729665901522987500459930792014359478234501822270135261615038426187301271748224987017957011906621225428098430101055028500129167100811224128706820463007108220076454696410069357172441489500600671613651328538162005477185045441990050042709319932666172600312730390771067890002474895889766235800021320509660892176000124656139715132341001]

/-- Rows from 200 on. -/
def besselRows2 : List Nat := [
  113746745422049510826769810959069180308139614768785096904079227852618623897830771287763442912874707571493656343526892074389769203416512770722085980174841778907010955293609953511068564406218930089940672851346934957949706514119811390231151063685095987119706570623255617919957630706015145474287674178058689444641881170700573069543203799978605513359407382948711053568081768095700520522358875278335451205095591256949395301049377821352477945100471455568119609583104554621586620607093044199514347977177120427088221511851845204124474315650686581039820598396449185850382669392220024921303684167914770429954035256979079271814000337589299629995555503221655201853414506030596276980931898550291582299519654873202740408265449292446026991584803027319820252334265113659130302352620123537633149022113366692117277250202329279200757946101945534311106897238018844714034678356600171482802991797813601524550720768131777014382018974897840200135563825856786815501275493668041519827011949234676375784870101099169244636304300811636200536318782007111643074339664720069606023324234688600673161605675156811005485156460212754020042741522136845304300312822006076016617002476185434029034460021318683645832753300124542109027781644001,
  151170003217401120828952376351940596108152125964422065482079298322653541505890771677658565623831707592676648575923907074502742626293164370722677218359190665907013990496466811188068717193660184949540673605207988884488106517764166508719469063857636217985847680624055280929519307906018771816483836349058850273836565144820573766771283852259705516312438146084381053690206150967774520522851736245323327805011498973497887264048452234878267862820471733591968326178704564731490962684113044235267828862302460428316928795476104004128574177871834043039953304288607349110383085682231691544903696810743660983801035294112317642075360338642828706645920203224538925474491444030672327417744808360291775257531377042302745111080552833793026110149811677956360242580153470674164002357874779752144292022124069733224789040202536563130819169301949340966301357912018910803106986660980171590909656059644601526210492574364484014405832337419889880135881502923010587001279411095482338223011993581695489406580101144875387968947200812060742819970777007115151897069284790069859822603213841100674732284666318541005493202957260995280042773852946293656100312913440030217656002477460321560068050021316846642988915800124429030722897938001,
  200612684704276250821182162017326912208068491821677999469079390046903972521820772182630470142275507511997562953484896073647611511527139370723431617168840098807017844090111561328068910215083246990860674552859825246111406522322623076543616063107238322579674720615045618720262654806023240552593863261058104747995100150940564617458492840296605519897548506297427053837734826559819170523444167507546916005013819148046844814048540796246305576670472062832952702179804576644412026939196044277188564382723980429750430813070707204133333645891184752039110659597115525700373564161984643162903611127016703895674034336370286959670500339835803715030902503227788132660218814030757591152803203380291990517976561555502750331410998765123026122290098279809170242850396813946922402363621229022839946022135716368789420350202761001291400419901953442176945332174018981652361181148030171706227021721274601527972171036515176014430982119166261180136215339228373928401283507298538025718011103972150925344400091192192052271090100812498047941862429007118748088535135510061011863149475180900576325833569151921005501324491098204570042806310686084127700313004688934047284002478720644179311400021314998978893224500124316894247138035001,
  265841969717618600821558829836327355608089870471315346383079509274316543476870772835775442122655807515511056983343499073833143287487286560724392996020040190607022730724639979309068115377163355169250665742713219691629206528017873122713412063133935934171763440616270739593380017906028741412420232045058128903521693525700565654309328790686405524245644618415146053101577715140839030514155602080072498005016591624199389571048646099457622675130472452381243057672104590669828285331387044326299300431162810421142150556933717404038854496150942863039128353192499691960374113716736551042803612779542432684241034384427178764166870331118578621587398103131446807954566897030853125690691133750292230517173732899602756122936145609912026135692207930914450243147254546202237302369902418601576507022148383888009683850203003906206587761001957858897216543034018105757493921747040161829190957337981701529841374041780580014457534902925415690136566054272976288001287789291243004131011108771496120652430091241165338373071200812948412927566223007122433207517564310061038251135981060000577942396310229324005509521009898224790042838893681473024200313095749154359904002479966493861623200021313140973961391100124205689184351073001,
  351776855668920070822052624570657890608011775923394388707078664044081258389670773679460983623660607520027236969353085073107045070573536460715616621621426545907028919786382046920068146072734713804050667234924432605958106535125269961117936063167089564255524060617784644195758264606035505528084147032058158460349170260560566916771668569779805529513842856758740053123043512953180440515009133528949389005019901511010359070048771196682871701730472912879591352068004510716828111505430043383785627243398610421336796169785723704045253543129006132039148760512442636070374744443642926302203614666834360281379034439041550235451680331271243715979736203135563949160339689030960103206372196630292497942176177133802762544564725065574026150479385959196740243473181485924590002376764776869589824022162155426256061270203266682593617601501962613440304239601018113890260968031590161960260919462339101531823993369917633014485560160168210670136934394897721934401292264316159429082011113762454391033300091291842338965828000813412139473156916007126208827628172440061065152369707926800579582115460688087005517792455554405280042871600258156010700313186617123889740002481197962715031320021311272942599269700124095405253610164001,
  464831574675583960822699077906533877808015409141733525479078864685175768911760774767854322070284907525824833668821180073137360208782318610717172115332004980507036748960892123257068184712841733256280669104161244898431806543984908515634055063208214755076668580619653374945624012806043814180984923932058194588751780094170568452380885624532905535890538731243105053148898952694498410516032180797113791605023849360361914185048919676129587623520473456778203267754604512655946285446193043451020838228899240421563337766055462804052664763477884796039172280194899448640375467809241452254803616820739346879808034501066341977642260331443775448406926003140194106906975733030107982225344043840282795754992756222402769660911313425679026166786144004536960243830843539040242902384258473586351245022177120370413079910203550833255620234901967729557916359004018122598675662405070162099921076857088001533926206254337511014515130357118058350137321136136217116201296939850199977667011118951443125789570091344271151797148400813889533973730741007130076537249789370061092573013606130400581245132221726961005526138763737256700042904428742519202500313277289340650823002482415142959610950021309395193307997300123986032307274119001,
  613358817254242450823544233217276996008020136001861056446078112445161459429610766170121971504336407533258018246096486073176038593881099270719147078008270063507046641059726784040068233296769414002900661144300085879515206455016392056588008063259172198430385760611195761758623801605954009336419849602058238704508904324090561031836272611036005443601421769900209053180011962774907660517257269321942685105028553866005857932048109575262715684340464098629769662572504514933153289606170043529594421297962160421826794476113198204061241706457571869039199366870353306270376296826390531630803619277221279437903034571460021496195090331638633608937434403145397978870806784030121372059375183650283127218995403941502777542813207725228026184759219335391640244223134528293302102392437697944188994022193374789744097690203857965313244907901973232523923992349018131919941443349530162248681480798823201536154487352298303014546321063966840980137727082086885496701210182361055227190010124345051111931130091398500892887468000814380907551421077007134037939473955640061120519243016103100582931586410475228005534559863952577440042937377461885403300313367762367335402002483618126906950330021307508028787310900123877560329078887001,
  808221025319241280824647677044495650408026277561157402521078146032927644903320767974473564750567507542776273132731290073225326786835536860711165160428982653406959124873279252937068294312745403432120661436609958189152806468736864057499819063322243941844972690611479584686286585005966506318995465826058292518732796521930561258354300817513505452916606545320050053217416248780429850518722948012720074805034155016457260952048130437292288031350464855430722021769904517605184026409125043621344689897258960422132942788098552504071160227405608131039230538668007106810377246252940838114903622076867165003674034651298971702404780331858567074660552503151243063837098489030136338924873669770283495927696868977602786267890876717982026204558609820855100244653194258450085002310136095553264869021211021893720719300204189796792437077101979149222330941019018141893435053389490162407079283039195701538515621135678259014579211067305274050138153066805605704701210692356070564055010129950041832300310091454581709762789700814886576082904092007138094652035935580061148997244977060700584641616446233365005543055679600028350042970444744755562800313458032830711168002484807006940204470021305611746037073100123769979432258173001,
  106352581188600000816086422467669672208034246761638760761078189405940592825180761029326664106255807454949353918960429073288058681568655000711482389826608713506974860984615231325068370854076260008120661801530422454846106485783004553313396063400225895430293530611828812640905046905981809049322316738058358097472049226090561533062081473085605464159079501127258053262341852246407700511047486481970580504940817775069655875048155133798191601580465747015652869137504520737925589683826043728396128510921960422488425961995287204082621585467502444039266385680400173860378332814671052178803625265452235169230034741791255671587530332106645972368885003157804381252983708030153058788102722620283905836096511980302795921155385271464026226358690046108140245124427900234239702311109138537780602021230172518330680160204548163586402151201985508239763371016018152560819783867400162575680003031798401541016714714038373014613882485837257340138599955219175799201211224791658090775010135773356797047100091512564794702361400815406860226388198007142248307247286880061178013217535943900586375359337084216005551626128032135830043003628921045495000313548097421017443002485981875494695820021303706636457039300123663279857692721001,
  139757145223638180817959877528542980808044574055658997411078245343541396563130761326944313657626207470498610342654689073367804872773440240711883725148149270406994673689844058867068466762059306109960662256591138329880906410693783538997765062496540014751528290612258069445406301105910052834224204262057437932943022333990561865887193900302605477714695624123435053316251140300753240511256702728054926704948736371990799940048184344492630374710466796512839370779904524407834590545729043853202103489602270422900878551294543904095855951808111389039307579502742376590379575455297694917403628894570570120170034844291901882559400332386297218352275303165165262417977565030171726162400723540284361294807217085502710659566643420520025250349414422159830245640526780921657102312169709828594102021250945642452994970204935026810581127901992339962682005120018163966163888435580162755078846074537001543665211101907465014650420889448529730139068644059909260201211780515276387438010141822118908233000091572502397998568800815942085448080466007146500551926002810061207573369056715500588132950666871209005560271120613689710043036928322317868500313637952891360491002487142825039080100021301792985944898200123557451972087906001,
  183406091803908180811039619400718725707957939992934937978078317394399440922470761708463549301933307490336241331617703073469058956123802480712390870424567929406911959042712400887067586801658174500070662823432450729549806413316335284306771062615370211139242740612785149255348814805912340386118656140057535028580067300930562268736116039950105494043999093947511053380881155658534530511506327864736575104958139305755405163048218865163961569390468030869942499751304528703564882466682043998593675765711870423379068022172319104011112638009609557038354883976632617390371099561667663824603533022338427577998034960319868373501080332701343768796879903173418219997038357030192555948654837200284867087192812262502711839324491695263025276737613525504180246205490674824406702313325153778833412021273468935967404910205352480570285309501999676679526980265018176156064366469950162945902074060529001546468902942460528014688915421700858330139560062821668603201212360400884315428010148103635857350530091634447841226725200816492582048124604007150853047324258830061237683917530220100589914524582544050005568990562781527120043070341282009591300313727596057108339002488289948057040180021299871074992608500123452486266179101001,
  240365877759141010811356037008674570307975216610054564873078410083952339491110762196936365833367007411561443806703659072597469634362033000713030978460813729906915089042866269767067736877228284842070663528741134465257206416564021488494246062761826847755125020613431682493937328005915133043478722645057653000493635062240562755875576078704605411369618873128166052458293409460875310511803902506212082504969295167257144505048259626751071209710469481460243021049504533727835576840698043116783534844580560413933055709607551004012873329726134738038409167282656755800371261755265327548803537714178204870208034109157685976631540323056047945129140903182665903123114575030215785447058555610285428469762873186302713142524417053379025305748390310702130246823651692475350602314583386505447685021297879341346617620205802760161487114801910755268801338332017189179776323977390163148808430573473401549435946699984964014729458925823717190131007517473764207201112965349585299722010154625403555514450091698455530522187100817058685186003827007155307469053779400061268351089884700000591720213781867191005577784354104664130043103866135654523900313817023795285087002489423337029510840021297941178781074600123348373352964413001,
  314598532070036810811766457885619242807997519937502948210078529176306771535400762821584759053498007414778683661885553072760129573167190310713837980902747761806919016468974435216067924297149206702140664405392782268999106420581596058502964062942145641955012770614223937215536332905918538957354762906057796198393383545850563344384886826779105413732560340251267052550932376659134450512158325485407051204982519416029161726048307717430015700010461118478123934296604439599573297280892043136468869071898530414574379629077271704014901957943809630038471415542790853420371446868039256903203543043691777479517034123996818805164000323455159232151651103193022145985146688030241676555035623920286051216090489116602714581338439227382025337626623270436470247499699873208339902315952936921495675021324323690564827610206288250726146937101911600440780364523017203089348126146390163364490622108251901552574877333773495014772148074276343080131061497778017054201113596290282173143010161395109596096470091764580969862465200817640734905403535007159865507008856350061299581121297176100593550149501492577005586652388344765530043137501221101692900313906233043965146002490543084417413500021296003567273174000123245103965964331001,
  411216756018149310812298131824322484507912627653174401998077682004515086765330763619408784322348007418868527794436342072965934489983389530714854233821240605106923938980998902818067115809811957319980655493845075418818306425546353866945168062116392794088955140605193782540762629005922688717978513336057969849582969904110564054692011906841405416571116572632287052661694158719380890512580089748920577304998182258459330505048364408169457855170461318325909357121204446456367202759900043159348490140300830415316261974730298704017237628569971338038542748111731782680371657997343259151803549093632851232601034140762588651001430323903966983195493103110461311847698103029270518167413528770286741664538569310102716169065500639701025372638584074206900248238710592020698902317442990461268054021352959359244425690206811496384368054301912507049879133553017217939762562353060163593676857241741001555894623466307668014817083501953737990131118050568293035101114254180342642300010168420636749540620091832880774351766200818239076158527530007164528865287038640061331380254505784400595404461505390432005595594553516924100043171244878728943100313995220801667381002491649282644902670021294058505305179200123142668957507889001,
  536809865632277950812986013313392705007916330767989635129077877886600774348640764637202510794357207424061558244427051072122602907008404600706132551506244673406930101882167134991067144944216319497190656843835350959336206431675228054574677062143643070189665740606379845872346697405927739862724226586057118023027800060740554911208320013265305419977929585076928052794007015566365290513081557713145810904911671780012436537047431182277725747440461552617429631269604454457280481204885043185920751234923900416173844483973162604019924913074850032038624434756418001540371898640115941601003555956988944950644034159693430630378650324408358505993721403111757858821644443029302628796219965810287506770101652575902717920229009728605025411073677700212770249046173898126549702319063435658223029021383954960055041920207375209866619307401913479198523956576017233789084251331670163837132445625175101559404523058845165014864369943111139340131177282898577988801114940006275435270010175710066490111510091903412683505605400818854058829862883007169299262107521840061363754739123260500597283278073640229005604610731950729190043205095451652154700314083984126749501002492742024083093960021292106252676593900123041059297044869001,
  699859748223600100813874885493824191407921093584773176666077112864899967278490755934078519548239407430647691869989939072155436011195842180707738717419398682806937809279835392232067181210216153049740658516446896103550706439233388124603751062177091613217173340607828901597245700305933882260256384516057143486925449972040555943079558605878705424063089232019946052951925742710137490513677282431943732804913863467024284882047509769539833197290461827072605639925404463786067848399283043216758658559780500417164455238293864304023014578723636283038717914945283658150372172741990125282603563738184693548267034181055844724893790324974883045803649103113207330403579834029338359428861273820288354160693030337802719850682237981344025453246313586087100249928025909468724802320824913744200110021417491077474949260207982282670243234101914521238602607313017250698613521196730164095661458715109401563114339607753149014914116372082132180131239305610257605101115654784417187445010183271682554297590091976235574532928400819486037759387571007174178429727260280061396710830951678300599186725991575771005613700800351602490043239051285930009000314172520136802796002493821401034275080021290147064238434900122940266069483700001,
  911271058714151090815022054740081269307927211909219360670077144928440928256220757584625739483488907438991041783105177072196836195996212560709754581035472175306947437785875367163067226305506234559120651058662161640719706348544646292489785062218107287066696920609597536071729349105941344535481985792057174278972067231470557185073580392458705428957307596009670052114024218590471710504384381908078650104916452834577153978047602185628744124530462148325534073344404474654855162643290043252520593056785350418307910905438369204026564411896122678038824819493423979230372484752138993251803572554419336645597034205147529822018970325610822228738809603114826851189931833029378096644929471350289292198231403813602721977722155307507025499497916864838450241089068239467725702222738871447264093021453761046124817910208635795765483158301915637785125623728017268733047006214070164370108454207794901567034278875180898014966436147866525570131304233441226835001116399561630122090010191113974530602840092051409475613391500820135372765216363007179168114354831430061430254791298611300510111493053928524004622864629862387610043273110730764409600314260826008047414002494887505716588220021288181189979983900122840280473554542001,
  118504623250599650806500765206075121207935062059177107967077185877763659775800759682855189122628907449548400034089997072248980496925891660701228187335201742906859453317494938231067282320593018249780651314621256439614306360004040532814227062268352288470481620601175414206520340105850401729794004482057211479634105186860558678628852869558405434815650737588011052136461455076315890505222975008084915404919509543641124145047710777572915005320462524064922772195504487308344673381185043293962506084758050419626858913738220504030640145791988045038946994837072571810372839684494289667803582537152543729850034232300848871895510326324267578591625303116635361512524172029422266013480822150281033004490735749202624320212328317299025550199089323706890241194107468155147202224817617174822490021492971774987679690209339030877310705201916833730551467314017287960645209523900164661360266188948701571175006167898639014102144716266474100121372185137357688201117175416010578727010199245641480430460092128995579167215700820802428665679299007184270076062073580061464392886294826600510306801548146128004632102086125158600043307272138696551600314348898974728361002495940430249171140021286208875114036900122741093820197289001,
  153914386379142460808404520732356619807945122222892111519077238114120096902620751234712486951398507362892199509076280072314584468794076420701544690305525649706874431679584582721067351827083581562690651630768878343452806374093035440469096062329843096966985690601438130573100443905861384426189669727057256381555408683700551047309185150559605341821922150081520052163171858567915580506216688734020966204923115023032448435047838276173260295200462963195233543736804410202861776217932042341951782671936760411114716459099984203935316505122257507038108653024085875740363243186038393840103593833754133632669034262886658152077730327124205774942071403118653799178278408029471335794341398960281147773503775357302626898715548490675025605751930327648020241308668803912622902227074380778385050021535344619937195880201009548237042289601818114259803575961017308453407288560810164970347863060284501575547664178384645014107927199443641940121443283566356195201117983457608442383010207675595589777970092209056255115273700821487575300828660007189486088693530190061499131386213678700510504610305760128004641413029343245140043341533865798746300314436736328512379002496980266637742500021284230360160680500122642697530973949001,
  199656899414851380801085254900465482307857999337084672715077304671254473487660751572628018736332807379739010540850465072397031790151311790701940633077146066106893083754823004556067437985238959288660652020862761515726906391397868565017819062405023695902029390601757866084196736905874689610054657101057310529874050145520551262717617126252605350193807640365731052194942420137561360507393248089173893504927364384434848703047987856388897066930463476021458766505304411914061641856450042397482990207758770411289834890399385003940678381832152069038124578827450418440363701612945159103403510660933478408221033297318536720498490328020612379373111603120905298320533570029525820968831246280281274625294583471402629735636902251645025666592528586971650241433560268876877402229523377106493132021581116307108696630201090886976589944101819484866008340015017330287253327539930165298048275352584201580163891402476136014114003806356154430121517655834039095801118824829157523096010216412965851426060092291655064126837300822191187553369050007194817939773721300061534476564792301300510704931397255238004650797314343439460043375894271861975100314524335417885796002498007106760631690021282245881029614500122545083136505151001,
  258675637597669570801399670206222366907874462873985585625077389377717399819730752000730177202567307310098486943968763071500534198877990660702435426179600987406811628630290084404066544674869835547830652501715674546752006311263167284158737061496853456368998950602146629878321820805890793584747422925057375769945352172300551521068169317625805360188909144823145052232700164876475690508785161474890613504932368637264948530047116320685429791340454074460853769190304413901839524574300042461695757582615550411491408310696352003946822157502143840038142743893223962290364222115424640005803512104877650791508033336057455496228750329024554820504198303123415406871401401029586287627267085470281414761733648754702632855378042766028025733193636322528330241569653760856951202232179873562978958021630539909764536920201178315091917480201820951366984059050017353542214369274120165645486595586145701585035841148161502014120387779368331610121595433403061005601119700706816935216010225467101777324840092376856770852603400822913645369006734007200267430412274300061570434698554762200510907776738740197004660254790638377340043410351720579288800314611693647553639002499021042355226870021280255669101052800122448242274930261001,
  334732343891369890801803016098788655807895487266699670864077497059743712238610752542482069023692807312774903161311780071630328657520469140703053094972428811306814511958132956436066676654489449511340653093854066148167606313866112814065018061608912527019423050602618883899373950305811026731778744278056454303785161760620551830651853241074305372111815551354833052277536201921304250501043051650258149204838257248493907093047136860985301616870454772285393729253504416209224765032148042535895060144507560411723274735610441103953857189848602863038163449780860728100364812732214888628903513735898350845517033379616929059306290321014830549767169403026212324288710749029653357742712251820281569497266987664402636284503473986578025806067538092934270241717889730454544002235060261898811305021683885881426783580201272253589017850001822519922511987098017378302630486539350166013738052389305201590176201150326870014127092877681263020121676752214122556201120612300923522466010234847577140847240092464727357140483600823655333776213324007205836375206938330061607012066137276600511113158091070810004669785302489067430043444904579725070800314698808477840025002500022165004853360021278259951305218100122352166690390865001,
  432628926316006700802319840433635593407812230512358423719076633794561168916510753227294466194743707316142810276585404071792920170954640920703823346636529757906818091325455566514066839754641836333280653822314485044189306317053854033777591061745528105897345110603192028361090215405813379465982923383056548756772406391590552201308790930223205386322382348830453052330733756989480130501237390333288660704845181099049744649047160903325741879660455585399227979179004418885682318990331042621574219781489360411989806117983508503961907482710654728038187036878882693290365482495760602172703515577137603110656033428568697229100730321140546593783596803029327161304707158029727714362701392720281740268807264426402640051919711263731025885769127299121320241879282173189986902238182134477391771021741443148176724870201373150153774122701824197052421660363017404657357181446760166403930161138158101595598213806532504014134133394277487980121761752809690180601121560856755374290010244564193748589760092555334035231754100824416642905400329007211526602144513720061644214947615640000511321087059006947004679388688967554290043479551221330202000314785677424089984002501010566126049790021276258950200470400122256848231537124001,
  558488030257151230802981301384360183307815647390349815640076807226332034757950754091994134547435807320376294188646144071996380529710508150704782876942379599306822530236403945442066104111252518588850644717605716186346706320954041883209190061911925600334529300603886980248662774505816219395629350345056662256412047682790552644708068363105005310324541933967568051393800822549994810501466748520186650604853315895837913562047189023615264358390456532155973151320304421988036800376155042720440967358508540412295979462086049803971113561085048576038213889176094112520366241549224322546103517654465201569970033483548987790489840321281110302109345303032794223607403591029810107253085605450281928646436420700302644189068239862688025972899204173314120242054923955978504702241564365265275044021803520263151865280201481480687164485701825989655523810687017432699980409583940166817244953432076801510131569704913546013141524173308042640121850580460257935001122547655306475863010254626985241377430092648745260935032700825197968007499541007217339952499720320061682049623834963900511531575090403068004689064784019694520043514290021853197800314872298056072949002501986336956247730021274252884050075000122162278850056760001,
  720107407826851600803826903246344168507819995936780429498076102695980181989870745182645022501640807325692126629164722071125071549779642540695976969135172627606828029549976099674066128945646813595680645816870065789202206325721382801874716061111440942440918890594728862107872729205819644366238537117056798525264651357540553174676425640409005312338201727232026051468508158184850840501737223870589804004862866106850539015047221889009940299450457633721327382846404425581523702499073042834446957080253430412647456989544265503981634575177205479038244439591095060120367101276591972585903519996784374032409033545265416416330000321438189837748271803036651321520057499029901359030732016980282136344981651866602648730133253182655025106810800989502260232245992498372910202245227195812945262021870446626407590690201597750919702330301827905029425315257017462529040534284470167254921287773507701510734306586934048013149280627930096700121943385293181935601123574014072533804010265046220924139320092745030746775749700825999709471946808007223278280732038850061720522375741884600511744633475432155004698813416528034780043549119362347350800314958667997387915002502949568541846280021272241966897642900122068450599226172001,
  927407003267445250804906676526006106507825523992005264420076130505025903278170746556804811231833507332359954238000701071156831568578871140697461448367841233406834835775540116978066159545053622880600647165283762403318106331543203059936897061136057906029351940595747821463767519705823771267840842017056961990503709320490553807584008123173005314732278069780035051556933485481391400502055938974249443804874069496421528059047260271825777456900458914487209581789304429740984547850361042965821169606770900413050676455880593503993650660097298842038279175922157544650368074447261672130203522636369924897726033614504584912283450321613631215206923003040940107910399916029100237182458053810272365236530914086602653712265216510697025117209901235714690232453755830112135402249192326503478383021942573773452143880201722498108718699801829950891261802670017494248265525029150167718257243873364401511369535450900108013157418758603455440122040322424117660101124641287848015379010275832409624288460092844261475118519200826822272844063803007229343454380546220061759639483719301600511960273345842556004708634410374763450043584037628623934100315044784924870496002503900351726655070021270226408641271500121975355632483506001,
  119299239864152720796283913108423968607832543692476446762076165661274298844340748286318084189863107340714854063052651071196450964635387730699305068483630417606843251157962888038066197211159984724190648817744212458745706338646122754645178061165958704309406960596980004837670888605828739624627218229056115791297441158020544562796737800358105317576327633665857051661512849966522330502431207479985549204887202348576514129047305065489665901900451040254444028882504334552224824261332042111710769345778110403512952843522355203910736558077069198037318647486064722340369175376644009345003525609242119074997033692140444418195490321809476243710737003045706446739801087029111413450752205520272617363958774376202659175821369996974025128563296003392980232679579047694288002253483013360712632021102027673591081140191856292822236214501832135399384746998017527966813722961060168208612603058921201512038823933626477013165955171854297350122141552091090538901125750869534440399010286996303578262850092946509711260123500827666068841836064007235537353956784560061799407226923842900512178505674247777004718527584504729830043619043211411516500315130646568001910002504838777140723670021268206415106397400121882986202023127001,
  153286413854764550798038594201654826307841447730473703284076210057875125975920741046077027491313907251172789951184759071245824171785530520691159242405478885106753645927163999226066243531364676315150641084090108271985506247304053893704026061202244674547800240598468714582499954405834715839276815827056139253910678434680545463206407883931805320952205456526081051785100269453439510502872726161719020404810258547879313064046357302815552617750451213022189481833204340113555925228142042129120843300078410404042592798017881303912300969487996691037363472521700849570361042010445431408003428955579878680553033779143496172089650322027982177994620603051000814854327936029123773054472779060272894955538338864202665164624356359142025140953222138045310232924931193928202402258124170722917377021110395547792760620191999740813329201101834467176041113828017563799526505492820168727411417315231901512743806242139659013174907099514563800122247239791229959301126904190959959021010298548902345844580093051849016490542300828531513372082159007241861872835680390061839831882626076100512399341273448516004728492752988510270043654134506511409100315216250708320077002505764935189520970021266182188117390700121791334657411390001,
  196730974838916790791027168202132126307752729620312158782076266063521026277100741319175448657916307264249621615711684071307290196321732870691442749996497974606766473163068881011066300439704652927940641331559914523045206257847777101071193061246239926991623520591026578173569441905741898207388294830056167327959235551070546535851387389726805324956165721489617051931036956334624340503391796817263981204812059114851948535046418176931130820520451413470108725246704346537544953811940042149143135678779360404649023330457366003914084327024162535037414346442078172940361182659254416505003432720177200453357033876590908915669060322271643229387784203056878739825586156029137434650744308910273200440720231844102671726240234877667025154468542822418150233191392585713687802263142480102960933021119403641207138100192153484989015850101836955331084899286017601867191191328540169276144669548275401513486185582939012013184292418445511460122357556420196901201128102723710250922010310501456751895500093160354261119721200829419027546012493007248318917144557240061880919725553675300512622790795787154004738529725085506210043689309914949347600315301595178832920002506678916043486750021264153925567905200121700393444223096001,
  252202431249119750791311048726634950207767008932477312317076336638844387550610741661813731935831807280584460497922290071383734137455006790691793799412626190906782286818097479144066370290395838221120641633981382576622806270676398854031697061299535043939178040591243319391683820405750522837096793600056200891937869658170547812642882137443905329701308877016551051110323159378446220494001582457704744904814165101271138029046489065223931318760451645871629896175604353952999204582293042172154497291134160405342936482309332403916116019697735387037472051027162759960361341494430161013103436952947067844579033985677639032135540322543214102693508403063401276870248157029152528130487284560273536467165165663302678912277223696367025169205244269404140233480662616657737202268566505571604803021129097399867736000192318207477883438201839609486761201377017642296814536595680169856373027713533901514267736664621636013194129670753981380122472678414335127501129347979970775129010322865472855111600093272101637467530700830329037694173081007254910405650257240061922677027237566700512848864732533885004748638305307050300043724567843123396900315386677863433930002507580809627904560021262121821490025900121610155102698603001,
  322951669746906200791671537513548625407785062681725752529076425480562380117470742091255128945660907210096833906187642070478711254110482330692228057691643732406710176354835262498065455946522304832470642003217581256921406286271047062854473061364039085457990120591504502411275370205760870631842723822056240986428401469630549331214075241139605335320430144839238051130625336589071340494717402885141839004816626524868288861046571556724894957410451915135166265599304362507215442019887042198583979919559400406136451840800159703918429213920392431037537464659386815870361520764784876518803441709477529947681033110772864710088080312845735738142209403070635528114321353029169195619064582550273905919122560509502686778706597580203025185266966837535640233794568062557226302274426816016870161021139525243272578300192494631800808516901842439803604808293017685221907182506930161046972969551251701415090308275584041013204438084510031750122592787895575984601130641513380402014010335652715943423860093387168672814640700831261975380772761007261638269644415690061965110055361235400513077573413304648004758818293479527430043759906702948177000315471496696320208002508470705613140450021260086066122203000121520612266421008001,
  413087239780114420792128813513168778207710786433081953948075537199809673699300742628939184136249707212637936908881312070596598445030128880692764728452488455806712572913495761462065560886901444136360642453619934027402806210521122871989025060442041430644023920591818971415801583905773275520883128150056288843040014509160541113591221065598405241969332889588912051154543969321892680495557075484681637204819501303499062599046667483402970955420452226894806919757904372368527785743718042228919768630445160407043299005489224403921061317577675009037611573714188092380361722984548304347203447051645052446488033124421231277308190313182563452540389103078655207722533624029187592560446524570274311937253960911802695386207258284849025202765572758121520234135071919267696002280756114649401500021150738742253583290192683525149299102501845457007496654009017730782779424709680161111792336241649801415955825938537475013215237594974623190122718072819126449201131984919896452584010348875214555626320093505634242311779500832218277417389994007268504452826904720062008225073113225900513308927005510190004769069484807463430043795324911995402900315556049661412923002509348693405194670021258046845976021600121431757661013262001,
  527796116417048320792708241686899695407713663220951132464075677542552349825090743301465822764521707215802581732715815070742779029714182900693427328369355065306715519043255050672065689334739418926580643002535037140660006212819435100709939060536285255559258570592197277602050140205788134153090496881056345918345485860870541327895684127526605249830679989330829051182702091253461150496541307884394310104822856457219295141046778955906790299620452587613439810424304383729192136274620042263716995221052210408079022341926859103924054498492321816037695485229383142050361950963204586482803453048290716450580033139675515876643520313557397689727664303087541256685909776029207888891395051960274757940006676244302610480053558988148024221821752789641370234504282804038792402287589376141473102021162792806473651510192885700776157126501848672417922908128017779126848684605180161180274125583720601416866294643602422013226548866346133320122848727123970270301133379838671172560010362545264528846910093627578581845086000833198385876057656007275510911187489670062052028338543006800513542935513836252004779391669936599080043830820893630859400315640334791780446002510214862136581450021256004343901814500121343584102854790001,
  673619881018142880793441672879343390807717288956236714761075853661749786731240744141805192872628107219739883244487638070923867946033944390694244629362815094206719137396752232233065846412388034958860643670911644891139906215605899868267600060650054768083783950592651998485607405705710591730554611685055413933646402064320541582179109956049805259118467427376829051215826446723314510497694150077659088804826769486348122366046908404359858267380453004699940441103204396808649677652197042303606539799564180409261210618516710903927456263344007977037790440989752210320362207838516201080203459775965352480846033156715800439660190313974317607668273103097382511352839461029230270312636568160275247646650164515402611509292231194567024242565674248078170234904464953029340102294963991805715900021175745882016581410193102020503335006701852097977482902961017830408959073038750161252605229832253701417823801661771849013238393314034521990122984950886211616501134827952939662674010376675433071433630093753083300855100600834202748101722571007282659612885717290062096526103920261000513779608779754344004789784635016913050043866393077147777000315724350169064105002511069300657524190021253958739153139000121256084497817374001,
  858799880931220400794369061312895821807721853894563288425075107445309193392550735190783653923577607224633692632864513070114798595741762800685251800866856715206723577252980085086065103832734117590030634484027018407666606218981266812828817060787278693660983870593198115045390405905712718330018616425055494921534450733490541883665703348668505270083217021536585051254764154896429380499043514670592595904831329950275233249046105862489494715630443486642264725429804311185721712813030041349304939882605830401060975441045854303831320103755596767037897833176990184320362497113057570516303467319750252289850033175741367946341760314437817748031282703010827643010204167028254939664493277080275785102095208362902612634049814980376024265137673001845000235338048849424688602210291992323886118020189660159554644780193333397352042022101855746282693588325017884791713447242200161328981037271643701418830519440560221013250793127472043770123126950475290675701136330990919287554010391278562860841320093882231395107043000835231816724077916007289952538129073010062141724615097683800514018956481062956004800248161765585450043902039897896714800315808093922906791002511912097527461930021251910207450138700121169251840019984001,
  109370816287895940785540475330068390007727595431278139509075135096876965472720736498907244020759207230710475819028642070142509323722402670686491793446857263106729020136545989805065127259558965828040635472355398994447206223066478487830633060952652943335461210593853456844311287005715259377019686535055591280370702079690542240843086318356505283017999743324199051300501955720655640491062177512968259504736641275110648209046123283270250922800444043158514456194104312916025713587406041401625540145863360401214713447267371203835706216963141633037101922175026875270352822694611801374103475774160704170097033196972644054983470314952848054046595703012032988289114260028282118414976163820276374703623921746302613862675025327795024289688992167099320235807642518367314902211149986487579649020204601793599038870193580798300343150001859630616139719397017942445818372520710161409605769828364001419888708583682374013263771293469468130123274938713100523201137890726720581871010406367776166098830094015107259410060700836286049668766641007297391679049438410062187630110877467900514260988131458815004810782027529900360043937759797411994800315891564230384337002512743341006845140021249858921041811500121083079210602218001,
  139138495904683330787018594545829769607734809488504763472075169692693489856490738128597204932591307238248930699328563070176739482846066740688017013310243301606735686589099790837065155830961543206450636672605572411611206228006597997372513060115178590705941630584639226980589765605718293217401225179055705837983508012690542663675954461018705298265417712803568051354188422916984610491246645327995336104742822822048911259046143472246815172070444685368301174489904314904288859769929041461491031221306230401389874463492449203840682309264553896037115635373917752250353188940817644208703485244140251708103033220653324393382860315524857523859741703013366000877354816028312048268911078640277021229667100733402615204201141388453024316382570393843220236316043526781490702212074941592004081020220641133359532390193845247173685574301863764980020536382017100355044241090860151494692832086027801421000720916630475013277351620126808310123429135036034190701139508981269670522010421956478994408120094151796700282970600837365910167953059007304979039577871170062234248822381432300514505713080137822004821386005350050390043973551223534664400315974759315439860002513563119049240820021247805048767197900120997559776516111001,
  176820840979898360788881808068130090107743864582673600944075212933839492668970731015692817247479007147591716470223572070218983303258702300689891347124677043806743844322300414051065190645968194565190638128959448116574406233975477481357037060139137041311427630585580620722678783205721912551982997240055841926091799166180543163854637904029705211622569197527723050417159584531240420491462100886290762904750012252578517155046166853718683686290445425987022153989404317187530378684779041529947542855797860401589325316023591203846324491296744539037131118464889487810353600708490402545303495846154285716690033247052704242657140316159841809655053803014839514686050347028344992907274960830277729870774421460802616668398425558484024345393882795740020236866251728130105302213071726213843064020237852965761526890194127827673987091501868164131145295962017106829358817016830151584465172015622001422169002640047204013291558761307654000123589765659991088901141187623242218810010438058365261455090094292386948564357000838471866770262103007312716635317754120062281586972425037300514753140511425590004832059864021856780044009412630532155500316057677448321175002514371519293710870021245748756115513100120912686789336007001,
  224472823949024890781122805476887184207655219187112563176075266927680461334350731267897901624520107159159746163139274070271068484402859180681219260834062721306653818025998266221065233031870529684440639894549417515006406241181302864951545060167938709271498640586707554004569003905726226983888780827055100346719820678220533755084069834409205213736602490284320050490968454488566460491713574572961255904758368231471441150046193914646795273180446279545984170687604319807876708914885041608180475502109330401816300693580544503852718275130347517037148590219722017090354063408080425266003410770939234862615032276468228760403790316864395097581006603016467584661620466028381239866564012590278506262932515680802618265830270618576024376911837747163400237461482794185192602214145536803032428020256316771191349020194429686553124592001872843617431636358017113687247855755480151679155653739567801423396097572816158013306418241686219040123757063748371282901142928570008923479010454687420984962310094436966671964440600839604393350082995007320606493416324460062329650774895257900515003279444436853004842803368159369240044045342479214562500316140316945021150002515168629057474530021243690205285240500120828453584086176001,
  284670251435439540781417957879507878407669443141461303232075334282434618489490731581192971661027807173469587178346372070335228621491297980681501549026397678506666001157913093185065284590291515551710631203321912962843606149873174252298630060202534470370081380588055520658495416305731366003289717900055119507597020992000534453419501947503505216223143088967062050577419050135216000492006885124401904904768073513903571799046225213558737635690447262641670552678404322813237895264992041697532275193978260402074448333780005803859959684202758011037168295262472908990354583063776260894003412097708936474755032309228283417358290317645766630118123503018265596381343120028421102568702288210279356523396055520202620007913319582848024411139732950299950238105182578032592202215301917990511199020276116992564071870194752036936872078101877819815962443187017120949395769436030151779007442654929501424684650486820782013321956482376313440123931269583086439901144733788592557852010471857928501055660094585625987556689000840763969116237675007328650652434634350062378446434132464900515256138732763918004853616278257353540044081339237047676400316222676166721392002515954535328843610021241629555242202100120744853578085953001,
  360638571121600310781788881288021950207687244026648182195075418223182484675270731970006591131829207191154627158095529070414190932335463670681847512786267190006680870103492423106065347252278766942500631462162040845807806160348909412766249060244056391747348250589666600397607147805737482482179902422055142217744269439410535277656264876369805219145725734603784050678605552060371650492348758773448912204779338469159106786046261390670192738280448394217848932927604326258069844934676041799522379568323560402367879513207449003868156488242670965037190506984295444010355166379806825875703413580797691347469032345695245969097370318511922261098326803020250384894705436028464922512729775900271028728920767725702521906981817587149024448296274363172250238801042354763038302216546784042617019020297343318332364760195096161805553847201883109972658582367017128637490695869940151884274403247293201426037410535346170013338200827151468570124112630738615592301146605296636576880010489584470702958080094738456474206591500841951078620010668007336851162215957600062427980144316376900515511727064193313004864498350753634800044117401378262758500316304753519238976002516729324760431750021239566961776621500120661880269812083001,
  456412748666097340782254565009845552107610949962723002413074522734051167074500732452088680167712507111299079767840136069511282426583607790682271139021854213706699001168613900007065423344141588148060631775170854026510306172964290658401388060293851218075648870581159064319968270505644756763444234614055169114473794044460536249781969983409505222578365031966813050796957354843130790492746965739074974604792405100243813291046303179382020432370449695884665863924804330204232873463202041915869588368169890402701225434662450603877429576581952579037215530771132297220355820813548363304603415237787664121044032386268823060804660319471611464256431503022440363540505936028513071640286602640271130575859390977502523976356470642711024488616661777022740239553014988636649902217886441520478491020320090980080015200195463417637902480901888732243626634657017136774267663602720151995221509933657301427457234777128629013355179569265530000124301402259134130401148545163385291045010507881935301572170094895551184935562900843166211762540942007345210083752685740062478258088856173300515770052960450864004875449338091305430044153527383963163100316386547452476551002517493083662601830021237502577559210100120579527237778017001,
  577035521275833720782838642337594938707613729784962593247074652732323199967480733049255314099414207113992781036663201069630558286273677580682789404924024473206612109095542473057064515666064820801180632153370932153459006188144013830941763060353519855341205020581388665996229816805653401441923291548055200945941600430070537395500806356906905226607225592219997050935290862204065400493210476489622751204710755162646615544045351419332393850010441119227937517820604234721958178626363041104851713993740510393079700168361489403887914484613556842037243707576178336490356554656097879482003417088144896725588032431389696477664500311053444024910424702924855663523323056028565954887736798220271241973543627138502526230418102403451024532353745038572940231036533207794246702119327613205388592020344461065369657830195855238224840087701894705738242544631017145383553366870370152112125271278991001428947091798080397013372921978883052610124497846838743754101150555510675610886010526765519107451330095057004659217501100844409863801573395007353729489051736040062529286439784841900516031124776974307004886468988780765990044189715742227770700316468056459875775002518245897997197460021235436552196272400120497788139429890001,
  728803008940719010783570498360207969407617198576431090733074814281448838256980733788296142364224607117312705440102736069776956974869873140683422899843016290706614798077533399337064627585905597524570632609964435957043706110639464301843927059424963892443126810581662445418944466205663666950694526367055238589804755964240538744841025637690605231332549072264852050109686899897602580483749640535360318204712509770474524145045407071205817901440441291147390544505704239890935223807263041119966080637734810393509170873472655003899763089648379766037275417872084937630357377121035516665403419153411138547998032481543506116485000311171095047322604102927518285090277671028624012938654430460271363767702940502202528684686417308053024579779255130140200231124252213132125502120877463353885690020370560846541150770196273138660138733601810105056403395291016154490312600839220152235274167938116601430510065432748116013391458331128921920124702235004831408401152638513940366796010546250732333707540095222912935205911500845682535357570010007362411460998510450062581071357157847900516294950702713625004897557047461607450044225964948211368400316549279077874068002518987853371490750021233369032283864900120416656710058917001,
  919568712464933230784486635431088841007621522980336198189074101485142529015450724702078980729827907121400753713474662069956487484442637390684196572896492751006618068587585161595064763151018466552290633160751648312688806112831992706207461059510440375370619630581988653513213607505675848083680514713055283074915143404840531033285835253323405136870876207513967050128546954716258450484376390875100034604714541037518549603045471233525958583270441488543509440827104245801534503440938041137178035447304350393996236102941577603811314549406125418036311086021237508540358298442164339750803421457414190378026032537265198975885140311301270607795153202930452261210194198028687725191329385330271496874535156160502531355904196577282024631185114548388650231218942983197291802122543624349109791020398504126184722560196718719515157970801810778787342584079016164120696408733430152364969104680972901432149358587585846013410819934766632180124914845304584444801154796403223201061010566353402919349160095393373561889199100846984732419178861007371258093219429510062633618988456188100516561538759958286004908713254964306840044262273504241949000316630213885364925002519719035032397140021231300161461021100120336126761729967001,
  115911943049066850775632354693927759907626908958508164001074126363679809749880725830893270749487807126430152819131700069117645519434150500675140631006895835306622043040295782708064927221471454003140633824627512880776106115463889511661349059612626251580329240582377035935895298605690291606314244894055335606527046499120531220044993905527005143357607375064170050150546356616960100485104477637965133704716891082744852541045545161687291694750441715054411191240504252556181817440569041156767475754309530394548313078816834903812825211540977938036351185106101972400359329981087715753603424026498450450697032599143775854687220311445238681495107302933683834722573681028757612956943352790271642286208696653002534262127272645085024686884831661598650231321123644894412202124334224817961470020428411600041769440197193671205108798901811493991241605935016174302091993743320152501523876866510001433868297168154907013431039161514744760125135964494689623801157031464205033037010587089680872577550095568485611172086600848316966348061915007380271489943080860062686935467993928100516830896804191617004919937348371739560044298639919915030400316710859503161646002520439527860911480021229230080462048200120256192182226032001,
  145963968407876240777063824960616235007633610837063186286074157194470049054240727224082675390523307132612190055474328069144573408145725500676291616776563526006626868919192000366064112562862378173630624624170265982426406118620721990801242059734694137802094370582839095531190908605610740512973929016054397595568344802220531439529562788750205150949951411558579050176190533036867450485949734930937901504719608209679562633045630289511983113560441974818236524856004260270902015980462041179050158537741100395173734917916888803814529600517327970036396242265630399100351048434556229616203326889777495858100032667827470022629910311604389007478657102937241649993458950028834242905121398200271801076765464147002537422820647695670024747214983975662440231431348145758108502126257919286655634020460411238115755350197699778554549246401812253007124926229016185063174449873760152645265651736952001435670334112384605013452149476011054730125365887734242707601159346039242089566010608476042633526860095748349689880753000849679753883079016007389453765860003110062741026916330255800517103032523971319004931229061080485940044335062712184974800316791214593464537002521149416366776180021227158927167929900120176846934008363001,
  183628496615710510778850625900883864107641942380274900921074195366794988304570728942027369071387307140204356030386442069177509452958391840677693701191290460106632723768155235041064136536375068156230625586338725756324106122404242052481562059880401337957883460583388399416350953505612766745135672647054470692608097995550531697294574137924105159830319442995775050206063541305779890486930385432098034304722747781252913591045728253653514940530442272539204062555004269077052209356163041204382104579637190395881858889493904003816451541990825543036446844588069237600351177551964907601703330079410689243726032744029394897647850311780244147504600802941156960189595946028918230774685065850271974408451416064402540858961143144319024812536795501647750231550208543425142202128323919450453544020494638684806381900198238925570082701001813058293715979635016196433960367229540152796535464911539501437559053532059883013474185466434083990125604918780895799101161742528415497482010630529295455971070095933067951689723400851073617143830150007398807045981152330062795899439686173400517377953440836456004942588122861938130044371540405453433100316871277859331932002521848784683374840021225086836656830400120098085053192011001,
  230788867827001490771107887151954498507552290335652377978074242586135490335240721105854891679423607049520183200813531069217759777783066070679400232753315272606639821148522056683064165480224011881400626743297689529635506126935357347539651059105419435505578600574040938040988775205615164059597258454054556827248380921180531999807740875128805170210228473280115050240839876751055620488067387865725401304726373213710407256045840921207787448850442613562039098199804279123266690280750041233164520251913940396683186898397205703818617667096759347036503645615255515860351321900677661632303333630905969865411032828533700742899640311974471491557917202945463851361526418028101024536862218430262163538503562595702544593146989157530024883237813692562030231678337429358207302130542027136659280020531237678911757520198813100428500390301813912434925613558016208445863368536190152955688732465439401439538174964723168013497182875791504970125853370190268612501164223390592425604010653266581807462000096122744108968081200852499083633553331007408333465495062180062851559129365834800517655666909240024004954014259923175640044408071531654875000316951048044154562002522537716562847320021223013941253737300120019900648536584001,
  289783315256951450771385504296209845207565130987430542510074300944315671082260721366382541634639507060941123396002831069266907017778834240671147559246669111606548417743272162110064200396987130799320628133394264371688306132357631352239066059126133150856988610574815544731574548705617998382794460524054658253777081955730532354594463190853505182334788549436783050281297990639175660489384833166827462104730557105161032759045970420936216919050443003955794399747804290577638310481480041265849295043904150397589499510062847303821057728150160461036567372518650103190351483198692985967703337583451170787087032922202283599818170312188896286176889502950199484610722496028111101285355113130262369826423891191802548649714786740966024959733691705138930231816410493974318202132922669043405155020570360494376071540199424400688890367401814818145562157453016221131751635084050153123095778987033301441611557738210227013521178633885218810126111563518650395901166791144498769046010676705383787415440096317483444543167900853956686241380424007418035169623751390062908012061182653200517936180116507201004965507194967623860044444654630339315600317030523931133815002523216295371412150021220940370579234300119942287900451880001,
  363512189297290260771731068764156784607581050369381467263074373004806031164990721686792226954681607074930875357390951069326867295780919800671399741334695911306558821822786806367064242485884015111670629802311896489195206138841403698498732059150802669469139870575734385580197169205621346994625280380054777604042918225530532770405092251410505196487857614640929050328335756399004350481091039589820840404635382516285835126045111917855422221090433450608198632993504210363016381441201040302945139157946570398614004968467119403823804948226885039036638834012977365700351663348928563839203341980276401106485032102598209311556290302425515767392838802955404357705868263028122132138529649450262594741772599155702553054864299552433024104247008204382660221965149240672349902135476933340306658020612168402693947230191007503873752103701715778277270802217016234526007481624880153299142382013550701443783205450060498013546210889962763850126379829529018122101169448369803358469010700863527562602690096517392823379299400855446963243948749007427914313477389870062965264294890199100518219500082818581004977066647255468370044481288248752247000317109704342763550002523884604084901770021218866251597439200119865241060018290001,
  455569835933235180772160817552660246507510076892497612268073461906375470569180722080506511089375907092052653876957680069399958619280128090671705923405541706906571403325575824124064293180255062063280621180443346453702506046588637268102439059180161781984284210576823531090223626905625300422209704289054917948656329376610533257407747930713005111299795983374928049382988154554422050481267584833304194804640944422918100751045128995659301257100433961331799342327104211849548368745837040345024432350630390399771504806095734603826896408085490256036718929079455847660351864458173263930403346869050244849032032114091308962178590302686514486207169502961122587609284326028134202608361395060262839872514997558902557836791558510981024113192464796003290222125323856610892502138216608220768159020656832157917579530191076734747460353901716795824710195665016248664589041181280153484230333252563001446057270564074884013572319046064854630126658508400397056301172197708213682574010725759187819545880096722580704169679600856970458306370665007437973061907772370063023321873617976000518505633661218383004988692332663824870044517970941911814700317188588140315743002524542725284496970021216791708663112300119788754448021617001,
  570406656784276480772694774438268913207512517156815673509073571488935301943180722563880671599012807011298998799967718068488982923462588520672077366916169560106586605853132744635064354191977670692060621420445016655927006055838616280678483059215076400820150160578113622781435319105629964639333474265054108286778265360290523827410458225834405113224507640749063049446447482896485450481471764557129482404647351362656022989045148589940337689880434544983313250570804213541595045374744040392730862740990760391107857780719232703730373474225014995036808656577255324130352088857883993774003352302312757569886032126813690479342490302974280921069884902967402215476583843028147405438060841590263106933958541550902563025830789496959024122860919930987140222297756248458472402141154222499546544020704532505248657830191150378625233881701717873931974382572016263585094122120740153678778017003834601448438059126315231013599543791078817860126947949940588901301175041864583102808010751410892233275350096933157150839188200858527720482559849007448213589360616000063082190823312109800518794587537646987004100038396374665640034554701272683302600317267174223329872002525190741152662750021214716863567947400119712822454002193001,
  713528085775630820773357611526603608507515534429692423847073706446201717380610723156826992141734507013857174980899877068597324407172766190672527619376292000706510496093185204539063427564065525007610621707925918331396706066874640167346284059256567634340156660579640650018291394305635463619281264039054127653297986152310524494116923496330305115466843288066626049520086439157038870481707759113183913504654727300409882866045171058393791980440435211597758492567004215466506309218810040446787942611016860391255378426337727703734282272239835484036909125829046487230352339126997501518703358337948489068972032140890626448098290303291425478816414502974295535801363371028161841176898671550263397778318651121502568654605703067516024133307195991956290222483323251725227302144303088353159985020755460714234286710191228694707396807701719015899268449319016279326826301319670153883221006203699701450930035602871330013627927135507789070127248513802292943201177983608029543177010777837525951928370097149233843956165800860119304214916168007458638079726725960063141877152181057300519086368230997815004101214124979442520034591477811850958900317345461529106130002525828733469271560021212641835586065600119637439535317999001,
  891738682165507780774179701937265361707519261875129343205073872510741797847960723883568464015172507016980225087956719068729067307471315630673072965813824968806512710495808965337063515732914031551390622052020038446515206080031881876523227059305838766650409700571144685469676596805541942295955375086054150380174528823230525273420817416511705118077542392068484049605484469375372340481980359366765029004663213740851649073045196807702365033880435972539122946430004217655130936416895040508008497360497310391421789265558023203738674210032217760036102156827436736550342618116942022069403365039703027196757032156459523688651130303640799992991859502981859451492403616028177618797797810870263714404954316160202574758190715169536024144589997386900400222682960022687392402147677346304840658020809819137624320970191311956106386277701720225189846465117016295930863318673480154098012676521098301453537827841742420013657512446965503240127560569702644733101181025773065629985010805058336096640240097370924092050957400861745769333368341007469248726192050520063202386850146303000519380982093197789004102396389689347520034628299138187186300317423449032202398002526456783607921960021210566741518721600119562600216221601001,
  111344131466662090765198404952672423407523862639490114257073107667809201022350714773548005013924607020789740449804231068889136848537231080673732966926730617106515379931655023214063621601908640669140622463569082291290206095706606915114171059364306783212780840571358178415293236705549569996412545196054177032667784337600526183744228192646205121115183574729809049704457826913813210482295052680469099104672972119162298015045226299992084578090436840669521921135604220142246240152971040577305233827160000391609413110966302903743606555878941479036114735029306746870342928979049681439203372477746844965838032173671037416455020304025518836476985402990155856793960828028194856360654935690264058971316938843802581374282699431810024156772165848249080222897663622335711002151292012560007803020867821796987173710191400450521902045001721505437220553522016313440127839737380154323624838942437401456266232161212466013688344486406623500127884497646197319801184171260740260596010833092936276203040097598342842839346800863407681053776686007480047731086665880063263725888298214200519678435309311457004103585160798513490034665163838519184600317501135743935192002527074972532432590021208491695738239500119488299086950672001,
  138900356070563060766459633664575870207529536434518238961073132747798274047250715862524426642194807025432814285971282068108346779821253450664531100094270052906518595424908386645063748628409057795340622955432562601672506011436698147276738058433639183992917710571610351579163445305558544417380196329054208268143814083000527246426629024500805124647354811456849049819093845387056140482658120562321990104684186505301757915045260060105760875880437830539019119023004222967038293151336040655702505230055880391820846620678297303749143076823492727036128798731036052720343275194587894624803380729290542505382032192690282079603070304448981773857602102999252050090627782028213681724543968870264433804658458420202588543383904770243024169920951221070250223128496802214812802155163028802653287020929694996221781780191494480945266713601722860452650169774016331899460654751540154560548391289349901459120218567119060013720469445102496220128220688151368837101187423039791570712010861961311115926320097831606694348716900865105609975695300007491037305732712120063325900218356986100519978733897668186004104780408292453210034702070507793029900317578520711884399002527683380793519120021206416810231186700119414530802831914001,
  173120604530509990768019765642702817907536527529188711007073163530230991126050717193892481322470407031087250510523009068131920588949988550665495522350595325706522465715281171632063900926468173066110623542852535943670406013656573508200154058515796942956090030571908008053492010405569096229100815833054244850600345202970528486171658210883205128751992229853461049951789994417784100483076749500260964504697066661303386553045298683793353432360438958598529248742604226173638406325819040744349402133775700392058991198529272803755354743383217183036144515930508006700343660607646719813603389879255908464554032213698146773089920304914898688085906502910922117877747218027234233312155227660264841414547538086402596308996706879884024184108298600166860223376592002475296802159307314567622825020995677964145581780191594366394101464701724294232920911501016351355696383877860154809293989121581101462104936101447005013753934982372334620128569542480380710601190784147811274754010891683820800173770098070833905945125300866840132079495794007502219670291322780063388915772138828400520281883710012114004105982101853912150034739017749135272800317655603019401930002528282088525646940021204342194640803200119341290083398141001,
  215579058783978580769947969782333184707545134444128087002073201280141509063830718820271580274912507037967808068822010068160494833704236800666659977868540735306527120610576268782063108338804792471540614243882326189265906016295498620507829058613084607685820140572259111632426117005581494402187756536054287667407251841240529931560000456708905133518910928311762049110529836100256480473559156695868522704611185149586918177044342846930152740620431024343849135475504129811722167883735040844534312165226100392327087225074580203762320507125071554036162072785365135180344089461139369012103310002100758391080031236892723734811440305427316325701750502912014271852412231027256660930036706860265284506245474686302510471783089872235023199411152719020150223643155572932488102163742822308518194020106602352738156930181700442678457377101725810968422442694016371857741759999820155070392736484452801465225718324700714013788790264079787480128931472872709910201194257692420346262010922281205628003110098316144409259132400868611828722853525007513597053608568020063452778461027370800520587890431674681004107190210868690430034776004173912079500317732381785124377002528871175444046090021202267956308697100119268571711518329001,
  268212982253955470761232903768709963907455721701969679372073247536252790505230711080541640391400106946333681070624742068195103082607981010668064876549208983506532714955778026969063130182596454170710615079890121782917706019430358879587841058728208688363537600572672978765406727105596052367271471729054337748588289819470521161563780730396105039051554365988991049128277628235565930474114732623989482704612881296586883329044393315886530269020431170605630154082404133937178021686270040957701105855289390392628751961652576203770128158278163801036181675485413809090344566436194938854503311125715049744004031262490859076785270305990647215254503802913210298941873185027281126648429257190265765994996528990102511382002426347887023215911780538667000223929472228417602602168488595285863812020114099881481225710181813063199578878101727415051535371668016393456656562031150155344396896968226001468488088934535575013825086001904922900129306902782078464101197846852456004743010953774590581351720098567659819008550000870421286636596667007525171693060451410063517494175450369100520896759581769152004108404704431434530034813028401785953000317808856162489464002529450720841898870021200194200315820300119196370532540463001,
  333404454248688410761526682621757110407468734058424494821073304168695908979670711322651288188657606956497452634568169068236986970404508380669758575065756688806539433328770288632063156314234340647090616076150128417554606023151741527793204058864345664318972700573160501255318257205511313513331435413053396289016725771370521357659139355976005045468992410891777049148784394949543340474754202584168818504614826048028636271044450959187282365240431337015582523714404138612853106912279040108546712204583110382968021503205074403778875271220339226036203552308756579340345096695246036515203312370039865502602031290729835599856970306609700924631489102914519571164482857027307805744725754330266289021290574091302512366937721367908023233698113031760180224236909750218572802173564828405276269020122088599491440330181932599782513241501729111085337190055016416205737273294800155631880625554617701471897767523158836013862874493401679400129696267117003426901110155487916997578009986185489905231340098825503443716252800872269097919921153007536945834396986220063583068784361752800521208496513407099004109625551351397220034850089060770108700317885025339256646002530020803587687990021198121029522736000119124681453446907001,
  414080054547890800761888843979053325807484713724307845225073373448589202587580711617693519614434406968835804888499637068287636969844162960661179889728674381006447495591862045741063187552700152588060617262536040186740006027566305767275318058102522114227287120563734404466435838105513316750884929740053464673950227718740521585852041765388505052908202120535713049172464990577568820475489809677659639404617054586878001467044516760614439841180431526248267571622604143909384899708976040122964314392993100383349397192092464403788670246404193761036227955878764457670345685929139464076703313747452131410427031321869198284075320307289717834798244402915952260352146419027336887714836373530266856967159328315002513432360232240118023252864107206264450224566923945938919902178992932140635869020130598304733572670182059443543818077601730903892637647396016440160603541118120155933440721733097101475460675476028639013902209662850808360121010001248492945801010538509743798314009101953581169932670089089800296320942400874155860034971299007548921731585384150063649508134729041700521523106413936209004110852720158166110034887184787280462300317960888537031514002530581502122692350021196048544609189400119053499442022206001,
  513832342307543320762334930736951772607410432119095306941072458131850310450180711976955390729412206983802320196849630068348840936052683880661425493754409493906457163450587115529063224869091759902760618674334004505345206032799550513986263058121520193716253700564409546521098766305515664359136248927053544508390300450340521851232341896070505061526669825655274049199794548241086580476335521943322326204619606898439904587044591833925000615700431741319935074806704149906128098839925040139225557612412820383777896945054657003799633458080044170036255165640509885640346340408625633411003315271537305077895031356192733843384850308036405620037782802917519402492550509027368577357008674790267473473570988641402514584458961671122023273510129464688680224921063880656467002184795599682724597020139660457012384680182194005795658261301732798525354215507016465379287515495650156249697404378010201479182942014414147013943147102918437890121051859743996659301010934090698043679009105384786252046960089360677104679214000876082175800789014007561101646652385980063716818051026192400521840594305199296004112086179107358540034924314226185367300318036445010794298002531132894458647840021193976844112996600118982819526033007001,
  637067775802979950762883934070267485607412836039355373833072561560076246567140712414070243321930006910194277083984296067422741864117217200661720919787424834506468748197258505852063269414081242092380611035319504993548505938999044447805319058143940311853051200565203264781266025005518413771394597478053637650819599179970522159671146885734705071505358153845436049231316934532059840477307266720667464004622528401821744622044677439374549566980431985630476696115504156692187189245306040157557105436069340384259111989046268803711189851803478679035285490576914901550347067040612057696703316957201474407649031394010616585489710308855978638183115302919232966931485077027403095932932897690268142458991814978102515829868854987731023295743361448382560225300977392837493402190996877459428208020149308262406790130182336718987623658801734800274238575118016491922326146284840156581295108884952201483070910384398564013985744117130312700121095249273425476701011342578359427054009108914435199538140089638262321956917000878048653386632427007573487849525765420063785004334731882900522160965043814074004113325896186284350034961476030853074700318111694048432297002531675058175549860021191906024468259000118912636792420054001,
  789186685075185820763559039826111791907415780909278028001072687781876320952220712945492940331880106912391336772431340067511906559973962910662076011933571715406482619847104872453063322550186488882160611234825017992908505946338193193382958058170381237795668470566135776846057407505521631706558754536053746251947702280700522517936782227958305083052087336373367049267654347602152360478423195682589183104625870661279067925044775002259358549100432263010322590342504164367566208616024040178212374260629180384799269549236267903712561366650202664035319272186638097420347873429598270023103318820793305444550031435661733729568570309755200448625349802921105930778359500027440682411260685310268868139187148178302517175700761753230023319678229572468060225708416909059480002197622239179449905020159576761566525180182488037687640495501736914678965346566016519852856520149160156928903307073383001487131144194937470013103005976317186880111140218157297683101011764328039588950009112544839744314170089922686136908105900880055906304666766007586082617875040230063854072763833333500522484223321473526004114571839119574160034998668863196993400318186634970276384002532208070419601590021189836180042918400118842946386501908001,
  976802070549801280764388532472387489007419385552898793649072841698696025076290713591068844000582506915050252522207975067619407229495973010662502507800952943006499217910194669996063385889675310321990611471741507643174805955020630196464717058201543443171786070567230644365404434505525395623249321413053872799183564181700522933827386370674605096405386565242680049309518207570547710479703984398413299904629692187151756188044886133713529931840432577772839160637404173044448441937032040201474559784346610385405302084349325403714094330241642713035356887747638647100348767944744019776603320880236656773144031481516204309557840301074142969109597502823152358880524187027481594798979988950269655048338480305302518629573263388399023345436859515369440226145245572215225702110469866355750967019170502922027897680182648439603391150601739147538594576898016549236714320125070157293217350369811801491370433907604596013107615489702423480111186815987304074101012199702907517524009116278352850676900081021408048403958400782104553402028068007598888236951410520063924029092335604100522810373665266159004115823975374773320035035891393718724100318261267128641501002532732007901303220021187767403175665500118773743511190374001,
  120800539568858920755406889018750861607423794261076282101072102923994595918380704374714534881607006918265680120206142067748918348559679020663014392857331030606411906408357160725062461339056123159450611752891568220645105965285331369463394058238245858436444160568515309191581377305529795394315808612053102016765224945250513416322436055689705011183887839561778048357721506816068560471117317075465673304534059337230651351044101265402430157730422934772846174998304182848620087815429040227659991059449550386084923721114387503715806966629064306035398753892427490780349759793059782031603323155174741358091031531978106833363020301182266957442873102825387489755887764027526111566421287390261050806155754846002420199646473746314023373149556987923840226613443698516009702111225471588526621019182125734710695570182818426645700751601741504922419796892016580142535492499520157674959336794790501495795803480691032013112409221794635210111235093652545219601012649074116050623009120117369179336740081051257905365954400784195218852263546007611906999426970520063994879049776509700523139420438016318004117082272167901340035073142301549015000318335589907371164002533246946893679640021185699784212205500118705023426217302001,
  149268921662284140756656101826229150207429182114670024289072125757317087655310705325231631281630906922151179142654858067904831596777127890663628319269792645206414277719601669186062551151265998861580612086307092779830605977412569128548663058281445305071420910561002171278567128405434935234008688019053119167868618141680513975755810672257905012966626731748950048413192808614273640471285753708178219604539047330652560233044115661875803486650423339471937884908904193921053389424485040257121845973863110386846714601273130103717719469019348162035445330523256504710341085909924867207803225667126785147422031587488431982542410301300762124175518802827827827898630683027574533172021062010261143241888299836802421894657925176512023402955316170565400227115115579279701302112032063361863739019194486314763973290182998526035392914201743993181213761609016612641861207370090158074879002284153701410041451717033742012117393631431331800111285103366139738401013112820929473637009124064325552222410081081831730180827900786328532146149200007625141205233206830064066628340747092600523471367838643844004118346696468975520035110420274486553300318409602721385997002533752963230640430021183633411540902500118636781447372727001,
  184293850119116050758187276988491801207435761392357158935072153535608630828050706477279040460934006926842889885160214067109239212994974100654364100628713229606417109079369616260062657986848522003540612481437463934064405991730839330177718058332259017441439490561178701138876016505440935914676173070053139116684872534960514624013350294337805015024701275786042048476992105977497320471478754141625050104544741387819414578044132034802195272640423798011366034177804110641966631434572039290254265351052850387700213921827230703719854203061090279035497125097919439830341207699277200272103228439658205171478031648528277827745580301430574129695031302830491242899654697027627183693339026720261243375084997741802423723960658470034023435002357273442390227652496644185255802112892841615889157019207628006934281880183189291455162738501746618958884302481016646809246201129720158493754636884127101410523408649141622012122575371032117530111336898692205637601013591330852208314009128121701418029460081113143246006938300788505128081888190007638593161398828960064139282644417741500523806219902542910004119617215007499030035147724009034716800318483305016236341002534250132305475680021181568371627802900118569012945754043001,
  227350489893669670751006256424394692707343789278414855185072187303860501485720707872533662662269206932503906466180688067131786004325983260655245295915880898406420487381989558790062784985624359080270612949392532260931205910862491517724346057391990730041055640561385440128478920705447937315039003967053162305669237731150515374758252752253205017399277704077906048550328778742235150471699780397495519404551238011389821093044150645922270079170424317293323368013504112052127761468679039327496906502305020388656022522431970703722235930138524049035554697319457117230341342570275716923603231498565408587429031715622306306881850301572730379667476702833397075851837457027684412571216492760261351810572807269602425697563641200000023469448694743364940228227961003395161602113811191901176272019221596495635871150183391304248061293601749389204553030075016682722370590854280158932394026367115601411026227734089379012127961291356826540111390534573216606601014084999758586704009132292019318446180081145206354525970800790725646754691523007652265181886947140064212847614069967700524143980501979714004120893794277912410035185052210436293300318556696267658900002534738529069464920021179504749051058800118501713347026158001,
  280238110980965930751235748544883805707353577127422729659072228322450914262860709561075102857725406939329474334617612067158870155287077300656299898360662084506424515491751436817062935850601094581440613503226019936356105912854520579110917057462160876740422680561627407055403843905456101347996028619053189245061729192420516243688095502612805020137475036125783048634581916243139700471952765564102892804558646425114711080044171790372262416900424905071555180393704113642377801616222039369339981051068050389725915953588955103724892052546165763035618664265889101820341491866141654305903234872076398522721031789342481071242030301728346703314047202836566253540292557027746596474375940140261469197852832726802427826174645389099023506462737713597890228844029386696908202114790695251599529019236439919908588280183605174664233865401752311185069953296016720462155252482630159391635419824352801411550711728643908012133558446352338340111446067357735241301014594232023704750009136577845355001350081178035136899642500792990733545744492007666159587431642600064287328876633863500524484653346508651004122176400545008870035222403592706188400318629775981137374002535218228030623560021177442626534751000118434878130692356001,
  345149595454812510751516374184530290607365501592299045107072278110423927315870701160303647059031706847553163375806908067191381521433449500657561147491016216706429315097065674825062111494615082456490604158265872558267205915201862427680514057544541529718256030561910429607764329705465615322611304898053220522938076228250517248827764284867805023293196776936163048731323305669260240472242175606413802904567090189201237773044195800783866832710425570052324361496804115434854038796718039416329826203713660381092296904609180703627852882583370709035689705999150306220341657061669984162103238591068463015509031870312108254466150301898634545481486602840021410949734927027814141292196928120261596234188564981502430121245722140001023546223924367480160229503377498589882002115835138534006643019252208993455499700183831543157602452301755392497977402204016760112880856451840159872348523798729901412097690302305508012139374098089084940111503554828524986501015119440655349090009140981789656468620081211643854713939100795301039110559983007680278705373943670064362732032231239100524828241983406644004123464999849311040035259776878662188900318702543691467160002535689303252563570021175382084982132000118368502829375802001,
  424755488321788430751859259609480313707380017980809566266072338497241883746380701407057103810425306857454194769393221067230379942102434520659068485788947714306435030060341251066062132741281003068060604932499102103932005917966120124728590057641196798475898640562241270724336383605476695802533996035053256816701726611360518410863129396200405026928074767873745048842343422808994510472573078987371878804576709013010340478044223051867744946740426322006863198425704117454309405152486039469075063398133380381226169309663584003631151937788246896035768571695711333480341839775496030172803242689304320269975031959210203266790970302084908709576905402843787022654842675027887484263862645700261733667892880199002432595021417889986023588923391965162970221020884480905122202016948525295347428019268957129958824150184071081734233503701758641084936983330016801762310656432990151037543552353078601312668020800055207012145415721788276290111563056231042707601015661047426991621009145506506846774460081246046950910746000797657219366723912007694624869497252460064439062653724551300525174749798125294004124759558012411580035297170799953782400318774998962324121002536151828353467610021173323203508291300118302583028111416001,
  522305559982287060752277894378919391807397676275366829305072411684627063729610701705019358292183506869366131382278651067277126850678260290651086868497305539606341830347196819354062157930143306594720605847019838370257105921219271549079944057754529515266164390562627774086506030705489593031722611149053298906216484021090519753520939464531105031112539769392480048969680802789317460472951225050003067504587660788245205075044253965535375740320427171896563781297804119728409091398279039528253403455673390381375818688724260403634826264725684004035856086344923460410342041783447718901403247203688197236249031105677620836764990292288595690932959902847889543695261195027967096252555169080261882301825630477202435260589884286430023634764684364104800221096344380054836002018135087128680953019286740573879425290184324495354182320301762065245633626873016845501817128611960151090183213189788101313262589022468550012151691010940854570111624632302313598001016219483011844577009150154696513344520081281259050706688200710005993548103253006709200419862238820064516326286271528600525524180014760742004126060040642275090035334584097089095300318847141385837332002536605876505181630021171266059472259300118237114363648074001,
  641751438402125930752788621145761033407311914033355772376071500320408068525940702064556589895557306883687178565772866067333122603968085700651301717113558839306349916632305534800062187772986582526900606926550657695962305925045365441428334057887335154269618740563079031531274573605410459600811708218052347688806023728870511130400111034158604935927035179862148048111565521408485960463383132220636354904510012386839423505043289016619906171850428132012289312140704122288059388209960039594619163031606120381543030286787142203638916793955833372035953158064973224160342265033074405055003252174543429679262031116381508753076860292511242642821629602852357560574750474027105348417388781280252042997114307623302438131937041362797023683964498948897710221177036969273413802019399295580297652019305618536952047040184592523388658371901765673652171140547016891426512560994220151145250866663638901313882310023482414012158207882519201780111688345300190216801016795187117970253009154929103675831120081317294962499034400710250985385602741006724007702641238800064594528446885609200525876535696540552004127366413138501360035372015519459985400318918970582165982002537051520432416730021169210728508552300118172092523760874001,
  787894573803328760753411224461686970207314521088473642591071607586640434858790702498080849543331506810089238568197427066400150536788052210651557958285177605706359525695033187367062223106580861910360608200048812068029405929542486381531102057104286406997521240553605575581279796605412203829697391434052404196376635444500511309346838262632104941463392339063178048128290511004566970463876187216826291204511429962307934255043328739263204157650429216129332024348904125167772104568619039669011563345388460381729782995302185303643468729038462101035106078609047783330332511659450396907503257645913290867830031128120282699328420292754527020151042702857221953064011840027114719358830038720252216677110939875002441224003961715004023736753474974225450221263301066715756302020745874621027980019325653340595517010184875941134408737001769475363974028484016939635383694064890151202847115644394001314528128926102140012164974482282613960111754259032997303401017388608624437962009159832519255160580081354169678758508500710500764611592868006739049069952182820064673674624002148500526231819746327543004128678640697550500035409463825365296700318990486199080100002537488832412055940021167157284558175400118107513246573381001,
  966564639366273410754169638094457931907317685305394639224071737304688586080160703020443523663635706812154808957272214066480328919838841160651863360206357901106370936736394730158062264914011696621400609701410768334677005934825030026717950057122489329781293500554219600738228355105414230468811791058052469614953506064270511515761121592763104947826388154252930048147442988906054130464438756580555457404513041529915738135043373734043536067720421043967970103066604028406068244110829039752363888919412170381938269451508405603648531972676602023035118006949022409480332784002359027301703263665886883341252031140989237188214960293020266948871189802862516067529093196027124881146770978630252404331599094166102444552747651771885023793377025416783210221355495861525641302022179813705677120019346910564464466460185175561387272025301773479843210699612016990231430516215800151263076247656850501315201021756340059012171999190177563280111822438889564070601018000205718521728009164867780542840550081391898376908859500710755398909197213006754326879692084950064753770277050464800526590034907140265004129996688317928540035446927782032323300319061687911545548002537917884272565220021165105799899088800118043372319889664001,
  118483447364511320745092794110538486807321522928161812354071894060448583768780703649402498230113306814632900073927804066576172199476584730652227110414339327006384478770110066567062314349545746735510601147029051976200905841026336090186198057143780933979134820554935217697875376505416583881555578782052545306959155227560511753727679304123004955135508349149702048169363755788786940465080312009488095504514872722396103634043424675926252279800421181994359655695304032045924984024907039845713591411576200382170918130051539503654161593371255292035131221667837341080333084624971404695503270286952064406233031155092003144388950293310432372289093002868275902552053487027135896914730475900252607021265603662202448135205415014494023854096214527593190221454002043386154802023706381445415538019369459201376551770185492236076910623901777696970753547757016104332180931924530141326046351449852001315901996295677455012179290625833760780111892951869645519301018630446033930883009170037771670465670081430496420193032200711014956480715121006769843495370115010064834820836031684600526951183762689704004131320520805333520035484406165636533000319132575421312813002538338747393512710021163056345176147100117979665580536000001,
  145127886435523230746215641421346875407326173866972009892071108335347125765170694406176460514275006817603840265542957066690663131654749230652660068120971094606310053926512682192061372767600627300420601355304948887144105848301733572950255057168670356271009980555768745225783897405419315187395263880052632836605806395870512027919213587340504963526942503062155048194439846337196260465811571128058680504516952438998042100043482323128639901600421337626211715359204036135270398709971039950213431645467460382430417615055271503660418336249212658035145855578765003610333416334142878603303277566377521697377031170541238767652650293627157028864221602874540307657926127027147834547400222250252825882452424707102451989562991162815023919188683375798120221559222989344530602025331139918878533019393371818856890380185826857964786683201782137062691763621016109901798012135240141391869436637784801316632092952345559012186857654157037820111965866614734394601019279806790066627009175345424079362260081469979358525797500711279506046036829006785601285940293190064916831701102444700527315268737931918004132650102777762410035521897761319559900319203148456509996002538751492705174320021161008989430520900117916388913712039001,
  177628589461626100747580366764230574207331806397676687274071131177442836783400695316102159680403006821163201605377744066827337694440402750653175060166222299006311957424540146604061441756476495152580601600385854497399605856832060807234652057197748206983362190556739045092610981805422483258462734930052733998822111009930512343678260178885404973155840253380630048223110583651729510466644655527786464504519313246461616189043547526999770585020421513027345518385604040727530805309981039106714376167800300372719743257709138603667369182039942181035162054597862549720333782202459804611903285566626270869944031187459374458276920293972751319630072702881351196012061927027160767016374378920253062132204849264602456135226674909339023988949625778525110221671586010538125902027059959648676632019418724727549282210186180362407505510501786810887413110149016115743585856703080141460661556477729101317392385651722322012194709391020059110112041253439265239201019948774932296575009180793716990309850081510362929332699800711549116840999884006801602625633820790064999808242164460100527682292099636302004133985398670577400035559401363205504100319273406771239648002539156190688246730021158963800128609800117853538252351395001,
  217243126382687040749237857339513987607338622771052750265071158721616825762280696409413241859253606825424617513338909066990384980236306670653787227921940077806314212008557077658061523177608998979140601888597576173454205866827732061318433057231699217255756160557867906215812146005426155858424244482052850852189409526560512707110045036991204984198861618304614048255874398060071240467593268114371079904521991827342093769043621243026820511400421710617506490615804045882236083680650039119792605825959480373042186442766624503675087958516860613035179978976523907430334185592179442393703294355803013977751031205979415784110100294349716127180860002888753772004823083027174772738050763340253317073633161359002460592899627775517023106369281711923290211791543661555776202028899035271001150019445598156751930880186553729187709988201791729683271283893016121869597241538970141532542933846365201318183982746145131012202855209051881680112119184362212062501020637847273239635009186385677873280200081551663058375183000711823858615687163006817849893791094710065083755798459945800528052255956969381004135326372741532040035596915774415595100319343350145179725002539552911373649410021156920843190456100117791109576491373001,
  265492800592319220741124945172900625807246865903454213394071191912455272967580697722162549720992106830523107367200966066118476463726027570644514433669699335206316880727906814966061619211220734208630602227322709593354205878533432954721805057271316789089749830559180485002913356405430410943254387344052985756424354116070513125187776443458204996857058400649223048293296503263593850468672892029996038404525029481053517787043704543091063464040421933101453866445804051665688842908212039134413782940130600373401386707229225803683656009085010061035199804644318255810334630181216811214003210400813797496120030226245808743483060294760757652183795502896796774696457447027189935955064334420253592101605729334102465384662607091398023114375169866888850211919575115279847402030854901927017454019474076437343661070186947984414770470701796905176855866170016128292362273044580141607638090481514901319008027944440315012211304743527367460112199733139080972901021347530635052741009192124382917130260081593895860561740900712103801632666801006834345474693408310065168679678172907600528425162262093269004136672989075757500035634439807081187200319412978383188416002539941724342409970021154880183017666500117729098912651856001,
  324216641660639950741368903448649558507256827351980477538071231879637782982590699297313610899131006836618996857742948066141634485813200440645377736361392319006320037649900573995061732409383479799190602625172124261680205892233538917747359057317519725546521720551070580985279942405335338146167957019052114141501406474380503605871979572901804911135912810525132047336017533614495000469901013675222966904528472683586448693043798629109640375630422183501220213571104058151703874090882039150752902703888070373801366976052674103693162923593354392035221724671476142320335119991344114389303211460451001871258030248415371869924530295208803337642137402810553273815399818026206347142690852910253888708792473272802470534059346994736023122948052014096400212056187606169640202032934452405784927019504248192375230900187364202497577581201710234960188227794015135024904988916780141686075979554216001319865701261474426012220067898357464600112282975294299231101022078341992711806009198012957499191060081637077640744979700712389016665174575006851091757394389560065254585158036363800528801012810779298004138025211590706890035671972282355226800319482291314913105002540322698725650900021152841882520852800117667502333223026001,
  395636183750915510741664554016049801607268856814458596560071279973298607916040691118603152692095506743902537947819288066169206441103689740646401948274322982806323769732262623198061865757658802764340603092183458706092805810825836460400862056371371457447949750551247735886033150305341040471916445489052132092368796961600504158245680735666504912796508679423971047384763258402362400461129737263850135504432373712499642693043904848213402286020422465191874146643704065422424948901431039169004011105075670374246572203081593503610370733687775870034245950861135850160335659418780977620103212623301206311114030272658300035333870295697018955653198002811501826977432237026224103441739654770254208492078638812802476066186837704093023132125554333217250212201917945065824502035144955069514148019536206535609061960187803508191808572601710807571871954346015142080760452506150141767990121637930901320758219988032638012229154852181359270112368988154001961601022830808618277818009204054576654689300081681224894504445000712679574995238925006868091135551191370065341477482945405700529179809243035689004139383004041059800035709512030422083200319551288794403071002540695903204650510021150806003146593900117606315955861984001,
  482433131085655580742022594476977423307283373438315347451071337805970935900470691344920872261912606752599349900288057066202012278676359930647616285927374014106328179004832595496061102274666301433440593640050751344098205812699136775893026056434102127350353590551453372100236871705347636228988097371052152782549812730010504792667472663942304914697041287437712047440355502462832010461288424165551808604436791344497322496043102470962673191780412781941150589086704073569226700060978039189382192322962440374741911730744064803611539780100265404034272715482270885100336253267367286014203213898956201009448030299159245138692220296228826936194966902812531434775327715026243309119539754820254553159369848216502482007790761180293023141947630982683190212357334108719115102037494072593081322019570049278299739370188267078724103401301711409683457408593015149473992352733470141853518744142503901321686839681332549012238576064561504680112457850879217824701023605468226139424009210252465545938000081726354308915073700712975548411748956006885346007255454150065429361865576193800529561553043749449004140746330023584210035747057890505897200319619970699726354002541061406010990770021148772604903936700117545535942897969001,
  587842410910951620742455883723831161207210087927395626504070407302307845031390691615926715072495006762976823344134291066241020320549073310649055130769615418806333385110130638032061120745510727194910594282389943801375905814887744882172243056507133942001645720551691935247827036805355261232007503469052176617337829442790505520944743137737604916871072002308662047503724417350186450461468674006851650404441791633689097701043115990343240640200413137953349168662104082693710058205414039212125754431373100375292805709471602703612835373766795435034302273155088594180336906784524910171703215297856265310296030328118479218781600296807926022548855002813648663893019599026264076060713159350254924536810488616102488387366353667279023152456697587354110212523036907374188302039989881550863984019605879144516901410188756145995653653301712042682434819850015157219211121787840141942804924281337101322652855176484640012248342282282535340112549644499454914701024402869119223828009216609899931242840081772482763301184100713277009208466284006902858774864097640065518243486010856300529946245543342281004142115152981958210035784608710877421300319688336932590374002541419274926783910021146741746390436600117485158500746117001,
  715763587349976110742979868040190728007212197526891199205070490757984177413620691940228571292188606775351653215701960066287373400497391960641075891763148274006239528260112975881061142464609862906240595035045691799245405817443250778752907056592110261750659980551968544145578319305364071310864910618052204060116257455220506356529630007301904919356702438571025047575922263899552360461673318464078220804447448779495738190043131232142341628780413537917940993424904092908800525036324039237498632295066400375905235947517435003614270647778568771034334902901624160110337625700230145841403216831361426497664030359753145902860140297438312343338647002814860583831034440026286524289523457750255324576438636368402495235264978493659023163697771767856360212699661733871712102042640892885133947019643803995321550280189271998867774489701712708015219224647015165331592583040240142035996735641045001323657601619210502012258464545755055520112644451946687955401025223570336165839009223130206633452160081819627329975815700713584030181980356006920631844829922060065608127491368289000530333887918439846004143489436211549380035822163348859376300319756387417966662002541769577284981000021144713484817745400117425179879329658001,
  870894169634877190743613089138413131707214738027032091339070590909430408790100692328051002570572706790098694178348717066342419483338584730641277517179179712406246772675332957493061167987875735152120595916445716749453505820425444291343406056690928960341817900552289089625699960305374245167875161796052235640416859424520507314740579675593804922197167889483036047658138885418963720461905548200753197404453846094118858630043148408026436445740413987063367462868804010433995944097127038265793028259774620376585801594008203003615860039581103533034370910375258333480338416269235327332803218511828383366317030394298606500308320298124301996856597502816174803164511569026310782525686841080255755364301911052902410258380670598785022175718621050170300212887880397868510502045456073291462313019683937062116642400189815985532100635201713407189377010442015173826897141846370142133247398423917201324702455520134632012268954195525313500112742358089748042101026068141799426764009229816764008099520081867805274965380600713896684629608453006938667627532094830065699018995440894800530724481192554191004144869142864153260035859720670830372700319824122103719338002542112379969751370021142687876036759900117365596371510333001,
  105888901110015810734377789494508395707217795358711551356070711016338612091670692791531142231099706710766136440735148065407747511461490700641515971881921140106255310582946187729061197963751474905170596948009842657614405823903580209283053056805780662199701480552660347403471333105385987629636648407052271963058939479270508413012737135073704925441505615989483047751719071190070140462168956751560759304461077080544765357043167754720780588880414491216562257723204011712651936290871038297332313096932120377341780092867602603617619414703804987034410630283965861090339285316795877752703220352693519379168030432009887471994000298870555249369259102817599508253123860026336988775636677230256219129059900313302411046739921137133022188569918508670460213088403048916801802048444867557833679019726397189502683920181038951596811687401614141775925775201015182721489532118160142234715433434154501325788835830965158012279822878891739500112843449769115842601026937164464352773009236673002411066900081917034058719401300714215046347240041006956968537106502380065790923078337167900531118026236779268004146254235952688030035897279552227406200319891540960237514002542447749416936210021140664974562333700117306404312527007001,
  128655077938280020735300633146387426907221472176169639103070854959218853911340693345067346699731206712856386114114839065485229346332772780641797809516037248506265366861752595588061233148180969504860598154621903448618205827957832757246193056939192547814178880553090106926609530705399533346304845920052313718509438023440509671180787912171204929145307094831655047858182032632663960462467589572526475304469246633211790769043189536863584639230415056868779590113804013142315571107888038332474211684490670378181193882906341603619566201674474236034454429023260184830331024028817811461603122368562460153729030473163236454274410299682102455471289702819143504557619935026365290961342120230256718251100105155502411892266331613898022202305406511076620213301980192290299902051617221895460360019771309087979417100181099406449080760601614913411709541768015192032359131795410142340564819880072201326918205042883503012291082556629357120112947815832119475901027831230469164265009243702404665720280081967331336805346700714539189627126721006975536991276038480065883844786130313200531514523770499118004147644678355849500035934838877547016400319958643980071675002542775751614576750021138644833597563000117247600079442271001,
  156205740507040720736413563426418898307225891031639257979070102735467996838950684005729752695926906715342549496773750065577068812681593040642130719184499004306277204435975197658061274421930726910400599565173893051987205832680966862457066056109407851244390390543587318396071448005311515099779422534051361694621469762410501111179831040316604833371564393356470047979243239636316850462805998842294998604478472374746686042043214050172470029420415691248368575449604014740150798045572038371614300098005000379112883360094023203621719539079888684034502707536043782620331128930224350949303124575306661918122030518057794492284040291056437181529804002720816260726759171026395847588895927790257255272195721303602412798856551364989022216982068949532300213529404801595510602054983608300603977019818803596845034240181163117239128212301615723801851408737015201777140860549940142450965157064942501328092070307461638012302745509823034010113055547168537803101028750943285864657009250908506529439980082018714960588318900714869189255617275006994375411180808010065977789130512636500531913974362108227004149040432822721980035972397540345017800320025431177573823002543096452103508240021136627505057648800117189180090596967001,
  189523351087344560737754822989584903707231198137550965555070123369157108282100684793743440296635406718297750038491803065685859014961076060642523716874688907406291130534988209263061322810622676663150591121319308454452005738180257535460356056127379657049046560544162260438007645105313314807406760267051416789928454516840501276049818625625104838191622023920827047111683889244174250453189304662981245004488886143580474682043241624955994047320416402401195643833404016525196504990719038415189843165723770371014658666206044403524100435811882567034555904417908863080331244120942690332403126990167551581593030567017392642510880291152321909054406602722627955627958818026428828459207244910257832905735003897702413770655783556422022232660312358471150213771514532363673202058555049988085368019869017957655274490181230245067330983001616574722285768380015211974136673320730142566091830040484401329311984580431397012314824346810581110113166736746610276801029696917872060571009258294897159501680082071202977895613000715205120510839186006101348622120831900056072761088455956800532316378429744189004150441461977347470036009954443234976100320091902588541426002543409915978020350021134613039593352100117131140805072492001,
  229787411593699210739370166075334682507237567822262192159070148049166049523810685733056701266014806721808273883746297065814649282837368130642987368267922567506210750395401454045060379507889686301340591313756438797557505744579693063269404056148221451915699260544826731233686954305315387630526454816051480028692954666020501464639916236388304843686246948941267047127315333534774610453623263379279241204410063564879984249042272630006310104610417199279484701236304018518563046952660038463684004122287250371129302688245872903526731945622660592034614499287865732090331370565444948313103129631868775274169030620392481640744360291256495940877661502724589528505022528026464415423261507270258454047553457044102414812072543227155022249404156336897090214029194040979586802062343147938556523019922096098615613920181300958288877423301617468022372265495015222642337663474490142686126179297473801330579547788628085012327332010236650420113281479649453991801030669780823681095009265865219578230420082124813633665907300715547059160326203006103287184882363830056168765601877865500532721736242031851004151847728323252600036047508497885315500320158058269865334002543716207886583980021132601486614037300117073478722160743001,
  278413043492061360731131429832240655407145207803888703031070177549915925232480686852009005491694206725975877845161739065967023318689842010643534047932488035006212674347124355631060445902126229640940591538336197483553205752022502687323237056172378501219419020545594266282980271705317773782707363075051552577933921826860501680256426702224604849946830872946256047145064975274084420454114343812011867304411388631029027792042307476912638264430418091839918792289604020743648507285038038517630460794544500371256400737424538703529639357203858678034679016446013374040331509314413224457603132520737150792754030678562203900718800291369640129351338302726712732456917831026502803184542484270259121787401655442002415927794225772590022267281433710423850214303377413471479902066360108603067622019978188930291256000181375432807513600001618405627593722095015233801446789669640142811255674569297001331896408020437062012340281784218442500113399873111888981601031670170528587895009273623171137382790082179565370583128800715895081458593264006105253472439959250056265807577313941300533130047918839564004153259194247933180036085058625015235700320223898299181413002544015392032643620021130592894310318400117016190380841645001,
  337096938967421740731365258577898839607154365428610279103070212790413278949600688184115692698213106730920491350494591065114719036980189210634178240673924250706214933760024856067060523607375958608230591800280619941922305760674055082578938056200363134967101640546480386392540454205320519217759287937051635766683569594880501926651746187288604857076740586144036047165210452583538650454669812287811576704412882330409637188042346624839174814480419091151927845255204023226376585563528038577618465786709430371397251585646867803532850401101556169034750028841314988460331661512070228327203135678832960452792030741936617712276360291492488306596191402729010191442717797026544200151350636860259839421083137871602417122803526700762022286364000886659780214595050708857656102070618772809932380019103745465303099860171453852379807216101619389542340296783015245471902240685100142941674092824642801333264262740068314012353687301624157180113522016557672232201032698737321063036009281572503981677480082235476829694730900716249264144658332006107247728104697580056363891885595761900533541313432045749004154675822027294690036122603754389308700320289422774525920002544307532175462570021128587309676318300116959272359268082001,
  407872057038365260731646308217611015607165335045327903365070254860570235621730689768989245761696606736783377795313315065136009153610733880634936891706033270906217585588343615092060614498977100214500592105636412635096705770725180355633626056232764546505550230547502879947875317205323676423408969351051731107755864689390502208082566814028004865192833932474728047188064567045167960455297827440935258204414565383497916585042390585815400164840411020951717529882703925995458179757353038644298391420000990371553283809913570103536395474884578029034828162374408804340331828404101270568103139130090264575062030810959084148415900291625831177323290102731495461029576700026588829341898244860251061046329852347002318402395755365993022306727958876609430214905254621925076602075132645920445509019110005907651316550171536408930254409501620421852782201143015257674901452777170143077581700527013201334684860025992269012367562551465191420113648011637141434901033756143637166450009289717025511433320082292566851014442100716609684439512547006109270195444485140056463023361534944600533955532606317452004156097573830052470036160142824810895300320354631813994765002544592691631035770021126584778531534000116902721274258162001,
  493172687869369650731983893224715319507178466718380845175070305052193842647050681165342028812833206643730831299865498065161152365678737230635829813328949207206220696196302097159060720754676980194430592461401456623441305782395975537198223056270259978899318630548682124055471045105327305321172173965051840322343036570520502529375414896095504874427160982938848047213979582256010030456007545867195872604416460966040754839042439930591485244130411146060135265014703929082678918903957038718387803743369900371726068202546594103540307888096494270034914100562278599250332011346212732249003142900467962353447030886108827869340790291770520480724989702734183093112964075026636929345214854460251143866123378435202319772197087325594022328453885474376520215235087270498037402079915929281559291019116617595183369160171623302877562661401621504729833340057015270432425794313200143219185440239070201336159999833865034012381921886403014830113777962265268808701034843064170949575009298060598844234810082350854474109258800716976420043538317006111321118267091710056563206803612943500534372705119898683004157524411722086900036197674784114374400320419525555406461002544870933273053640021124585345542330600116846533780794698001,
  595911802271813600732389121909878981707194176514902732482070364895451376652530681389264526279052706651958497092940610065190828360228066360636880156975770948606224342870124101918060844902030102458300592875670146956797105795940161768236829056313627489288061630541004144973414512305231474286158878185051965367794959244240502896000416877596104884928872223385074047243352028963833710456809239824595468404418594989269974920042495295116685496160411285957949593099203932523215107453856038800678113789369060371917331314071188903544624128643335832034100858959363848250322211813375372795703147018112376362546030967903683731640850291927473438852679502737088704851404400026688755341057452480251232800893247597802321238183801993780022351627079107959820215585707112446478502084983553025266626019123598731656916970171714743472451885201622640432208297825015283767265932727810143366699121651217201337691535284279588012396780030371707400113911974660125868201035960186031515976009306607143275580040082410358938670687900717349549133876414006113400740603199920056664446973676804500534792830505409804004158956297670756690036235198589156199500320484104155968758002545142319533923410021122589054243060400116790706571531763001,
  719572948915942550732875233562227471507111295864413402386069436201754074770960681655183217664465906661696417880359054065225833623991536120638114960838799569206228615566183672815060989873011828275510593357800287982657505711165007069389527055363760506784094860541160755700186436305236261302264550424051110846897921498090493314154289626902904896866358038035705047276628074262286010457714428301498346304420996410875257310042557387704288313530411442329615255316103936355980765109574038892041858424987720372128970227209868703549384152399762281034111244380606079120322431409804298748403151513532189606486030105690304187342510282097677509948224602740229052071653373026744580182188114680251328276249367235002322806702554369478022376337814895039710215958335997878824902090351210266085286019130968385326018370171810949147324176401623831309575139068015297703047899050900143520343617114325901339281373975675150012412152086317090780114050157381759444901037108208900916093009315360634738437990082471099685070067500717729150361742280006115509306689467110056766748596640715800535215908150656663004160393193549169720036272713205804780400320548367791949074002545406912405845410021120595947056814800116735236376308268001,
  868319367991834990733457997397415936707113539977357481407069521114159642872470681970782092707140406673214924891045411065267100985002713660639565784835395579906233618931092364372060115906691377234480583918604645316822105712986234812494426055421684427960170000541341098645428279305241755270123341126051127215366761668000493790853668078705204811042964651152670046314309518593556050458736022912231466604423697579978305794042626996952888600460411617044185169142503940624008687825853038993440667667205730372363068668573517303554631697956924799034122655161820501560322671879731110943303156419786620010946030115371100475474630282282195466305145202743622107414653822026804695542558599570251430745613938983602324484491731810414022402681613459661530216354262362167962802096035392749766739019138746526177352960171912147878161755801625079805806548071015312264259865546010143680347061757753201340931479322743768012428053544053415500114192621371479617701038287845192866026009324325106261663590082533096354897970500718115302849692231006117647060951604460056870116360193494200535641937299449967004161835061140410720036310217608929342600320612316658348600002545664773441936550021118606065315821000116680119961668405001]

/-- Rows from 300 on. -/
def besselRows3 : List Nat := [
  104712346733534810724156184359565191107116219590236977595069622166577520097400682345116067682732706686831511162013131065315722335495415850631126944645045270806139474634810134008060135642273979297900584570570687450711605715096447495985275055488575526105602010541548665477417339105248057487352548071051145929244850470940494334040012632558204812583308961119467046356960491232981730459888490233073603904426734619678422032042705000500555087740411812174746725901103945374868718203016038110593398022300000362621914573399585503560414628586212763034135188195299881820322935119027689391503161772687776777152030125897977048882520282482170817405699402747287143507757178026869413135126286940251540691919740550002326278703949101968022430759523088406300216774844565667465802010205342800810036018146954064601510680172018577559021456201626388462331880435015327476279652213600143846945058274371001342643871920670311012444500288238534040114339479991559832801039499820212277051009333504648427201660082596368791487490100718508086188839645006119814247987471930056974554914511804100536070917052433751004163281862141724690036347710782387576900320675950968579968002545915963757408750021116619449281480600116625354130388895001,
  126192036748212510724992124747934200207119417223705611740069742353274317101940682788849363494566506610291884640646718064372975039697310210631326887303002675906146324063887784027060158650249542318630585328112540533026405717540221885843588055565782486645025600541787446255785842305255283323028758624051167314372386941800494952697482614443304814331837117885085046405214922578903410451118803236005774904330147851099057792042792374695869084420412030019821054074603950661126698508984038123068857430316720362908019228135791003566785303655227473034148949119029133970323223187745280375203167611018206292810030137341325770669590282698833600315481602751244821464635264026939066003219896680251658629404759571002328196929737444277022460678415828270830217221514386192172502010842351807650856018155612891547917240172130486389503532501627759921592756470015343365402978204250144020380886455595001344420630935547903012461508606468510020114490849065349765701040744872315585993009342903409826030660082660937040421468400718907580436022325006122011112550196950057080068871979317800536502846367923828004164733558168660250036385191719012336800320739270954148726002546160544030791780021114636138164064600116570935721012880001,
  151978987984096230725992366889472670607123230659026887890069885210424798916870683314534258031088206612191411794362251064440352607593182060631561408843579121106154331428828907572060185458696161757850586207859736372146605720368814541829502055654850921919816750542061998390804599705263564111034187921051191740441697063850495656985322043381104816315787389129113046459784880014315590451265278765533223204333982263258925631042890205277922859040412273126915069606803956540847888792403038136898898647859690363224138125847828903573800981906429359034164053069035457920323538323637033278903173976764702511183030149777098815795470282933506560619897302755517285031045653026101400988957635200241785105508223192702330247222485442015022492551298152811980217695780670559007002011516477983297237018164745920213341250172248133275581638401629196930604876890015359958872474404420144200905717559891901346263895521307674012479095197492572580114646846917800979001042023753071872184009352525597512769250082726821350023426200719313866110920709006124237899531312690057186662806911572400536937724062754718004166190110759166920036422659420597207100320802276864338307002546398574505204270021112656170142066100116516861607390448001,
  182917205363277020727188454708868146407127775691091413317069105491174167964280673936936869762597806614432991115556998064519600304774670060631836335464487454006163687347413706057060216678576899970890587228987964740398705723641133485059620055757551264489801550542377524843597059905273049289929923063051219626709039574280496458386481640552104818565844647891681046521469863424003220451430305385263213104338288033523081759042999699166218087780412544318433675501303963078148967995586038152224889753060070363573293680397543103581524259195835704034180625493266422400323882956736915443803180915369528141998030163287224426716670283187611748562147402760128260712229509026109462468738309070241920702873308972902332438124692750707022526497636848485610218199233151715469102012229728701876129018174377129315393860172371788244190705101630702344628799704015377284907473757970144388778833599600101348175866263509050012497277179549368350114807594416405979601043337227424751175009362375477458907230082794042171832297700719727024193128306006126494853943923980057294341255286750200537375548813136018004167651481377652540036460112897881121500320864968965898650002546630114989671570021110679582381216800116463128698225590001,
  220012233156997240728617845120884112907133189365668823612069125638055158929760674673417697408682506617076687634869962064612756470783170070632158449194217409906174612974789455903060253016384502117700588413597756266411805727424846963133587055875910489849297060542739962765475366205283908820387540556051251448425726093220497369874398361878104821116561706305615046591167166727986960451616153591645067504343121103862478874042112219747107053740402846720178558332203970343803099697449038169202357092787290363958799957148093403590023543489730383034198803031765844420324259725073026565803188476000268829549030177960051994098850283462677556491300502765103164236205991026118131597788258620242066041462074182402334778695599690664022562643700799193540218733546438218802002012984211400338009018184531608003866200172501732871978797101632279130952468684015395372734596104260144584267851631298101350158806650330619012516072098825397410114973215012550502901044686073855030534009372457375004577900082862620161060717400720147136119174014006128782220905898310057403108714482106000537816319155516744004169117631418994420036497551170531939100320927347542738440002546855224860480980021108706411053175500116409733936629570001,
  264461341374351950721032498975821156307039633783895145706069149542107207147890675544375874916635106620192846739105838064722200435804716350632535640485693735506187364761354348431060295288659769811290589787147832447222805731797648059822073055101224817766938900533156083924759817005296335914982574427051287744076045402890498406100072823127304824006830353034446046669883423124635850451825362129571196504348543818668629483042125918984567767890403183792680790840303978415902938440812038188002343678117950364384289590669701103599373570132599222034218734468266743900324671491598763539503196711839623054623030193890828405985630283760346225258419302770469213726678092026127451665932928960242221780788403891702337278540258916046022601122919374267980219300484183075503102013782138135819306018195235602464284840172638260728639319601633930372788344100015414252619144616800144787648953136404201352215044571112290012535497938036572650115143834783279506801046071084544117464009382775675308832250082932576177036949100720574283779497678006131100245623088030057512969643016277100538260033487458480004170588522212511400036534973267129090900320989412895620781002547073963062587810021106736691353892900116356674299680560001,
  317689216976285470721236260973578955107047300570852657667069177887209367149730676573767527179361506623863808182273607064850708060369653140632977084500411458606110223993111427333059344438653050372880581137895077680020805636848696378482171055116921748616028450533633608437782521705211055011936749660050329123519747117810499583601828111094804827280407745623893046758747464227919280452060768548320879304354625630437269578042141233031251704600403559365637024528603987380586879892072038208812892192203370364853743073605120303510965596063034692033240581758694067750325121362431067741803110568039651597113029211182207729192980284082381848809240202776255549979666013026137468867233300190242388622275051859302339947840118097629022642076258153085580219901903439201441402014625830330523304018206516564269574520172781677835249658401635659273288039737015433955897331155020144999207118579026301354346973842791271012555573125133784470115319582473476698201047493065538163451009393334823798341580083003931283630271700721008549515378645006133449173372582620057623928460297263100538706690068516348004172064115025889490036572378225145246400321051165341862556002547286388111053730021104770457521654600116303946797989499001,
  381390139100314810721479319703702682107056416121207139246069211478679163237110677789710258845730806628185898315208707064100151607733133920623493444657403291606111958278647006070059401555435879950140581322273971964863105642680260828448386055134985168776984550534181333509409728605212680078854828995050376277148266067370491092104040318056104730986504427422971046859024637047143290452325543108908959304361443880255765196042158345470929960920403977675743597886703997332834321041075038231840663516900730365371520615581922803512095982844043957033264521142469032250325612706491146025403111544384001614974029229944796414102730284430678907920852802782493364259439671026148232482687833820242567311741134475902342797385185573264022685652612748655640211053975920902492901915517723710985658018218403200537314130172932303138052964601637469159677431649015454515009348141190145219236367229527101356557055764584129012576316542133388410115500589538457830501048952836912935167009404139326614476900083076706749659829100721450016115818538006135829249485996000057735989546376202200539156287021128061004173544371069068180036609765090927080200321112605215037161002547492558092528770021102807742854816400116251548475272024001,
  457577787287354570721769078180138485907067247753582690677069251264299441696540679225187709420515306633271744473634979064117839659267555560624097107545105953006113979196051515231059467895812477260050581535731590390971905649409590700957524055155761699717249430534809279099699545805214537100724259309050429986176581267490491243946233310504404735180440922208088046972132737917624830452623226396272832404369084660708239595042177459991339332810404443408249554145703910837733619801486037257312702592977960365942396786899484903513338243552599048033290744342933279660326149176649612069703112606935763045298029250297736348650660284807271365818364702789216034051818376026159795073657686090242758642026735494902345838607854018141022732009221522478650211121610919602171701916460373448807342018230925525951652880173090468998129900501639363487515258830015475963533304810400145448040002342648301358847820701261810012597747534073483770115686990186977571401050451232939396384009415193751058701380083150924049286840500721898766814378072006138240719332787980057849157241706749900539608822331510112004175029251498080630036647132919675125200321173732864680831002547692530666770220021100848579729228300116199476407926416001,
  548644030201097630722114301142697916707080110927087698532069298358893385639680671091887030066259006539252962212107063064138574330486814710624802453892366575706116332875513905976059544909429186102460581782728832787519105657171045779800307055179647251544787730535528852669870809205216658200916027784050491134206742238890491416259489996433304739924380614748571046109965973918372760442957771025512910004377643769555324757042198802501855646960404961742578536376303912062944761196191037285478364409090710366571598178756482003514702990371528200033319459863666545340326734732484975231703113762953965442373029272369328229722440285214342360293477302796459267236556019026172212686598831280242963455761590341102349083618460419991022781312098014205410211193311876624930701917456459510164479018244114916710629190173256521697418188701641345845078299425015498336220045987420145685930861780419601361221869695370889012619885918096892760115878921424650027201051989102249990345009426502726036222360083226604862390157300722354885285969328006140683828303625560057963435846910288900540064293850561935004176518717418853670036684480775422741200321234548656002342002547886363068196550021098892999615357200116147727704617471001,
  657428274243530170722525359512728662707095377698630409366069354073030870533320671291607083062764706546283273825657008064162867123514648470625626170977726889306119072672282071570059634267534856924500582068391816278188205666118520241079444055207093821871457010536353035425504245905219079815658699875050560720214814062900491611717630548179004745288147459446442046124338350280891860443333587870653693204387227763357683834042222623465408259770405538402400992541303913421622994103419037316611413972212320367264844330099605503516201798521296335033350894387957801800327373664771830043403115020279136385870029296297697870582410285654234528931342502710426125516531781025185545069713940770243182648285141971702352545242663985077022833736483941680750211269306612823140001918508792221633289018258004166461285010173430821961548306301643419957876262543015521669028871778790145933231574170533401363681876108751693012642751992661687400116076523097782600901053567308005606951009438070942497838550083303771074925052000722818455643603041006143158821793782390058078829622546676300540522699294776591004178012729890964580036721807731014250700321295052969596169002548074112107475380021096941033095115800116096299505866199001,
  787299222275500200723014517657243898207011348662892465070068419946542644657890671526985648245721506554542125508050636064191313202757027610626587612635381018106122260267227510659059737895907383665690582398608233981602505676428199611374610055238617203662733690537296592771073583905221843254894316205050639873130461279700491833332512340040504751350137979793219046140529369530411630443755597287439189104397955121100261677042249200465417511490406179710572286356803914927759047232321037351012315252714310368028392190861605903517847289693565485033385294289209082310328070621823002354003116387377494809932029322231508221980830286129461006143320102711266283515779412025199855902167452680243417170725597772102356237060727082697022889467323660341040211349834773983835101919620318060106399018272627544286709170173613745499974922201645589693299599228015545999164176878750146190274820692121301366230587293707484012666366546880155490116279937937623130901055186728063222485009449903153879925860083382444779265247400723289562435092221006145665945186581070058195342788890720100540984036247158694004179511249931354580036759112868082202800321355246201159139002548255834173149990021094992709878392500116045188983645256001,
  942251208700050850723596270770483824907013495437901401345068497787626647931010671804234217226558106564238880721686542064224604718250691570627709213905002939206125966930344431114059858012532120117180582780137261756616605688301695135873902055274805719757578500538376312021106519905224995333711812499050729868197796641790492084495354009037804758198338037339359046158761614060203630444229285848866843604310995752884425712041278841030466178700406892649389389478903916596752827540552037389010725326907280368869084412510360603519653222369430604033422927260605305700328830637818313297403117873388320731615029350330720052545640286642717132904127702712170766295580096025215213036539221550243668033245968254802360173448787943396022948699761005335510211435148395111190501920794125674819629018288020854810894680173805683563894909101647859065403497245015571365113028445470146457403602581568101368870826294179717012690750869987059110116489311605020049001056848255144199037009462004176542512200083462648274528102300723768290639712435006148205443836879510058312979525714278200541448302158148968004181014238518001640036796395277023856300321415128761210354002548431585233291750021093048058819301900115994393340980045001,
  112701764581942420714287740897917784407016038927845991118068589718455332277100672130619402450648506575617679088990687064263546193592001570629016968385910241006130274970610431891059997170697756956490583220734860430136705610196960562651162054316330116481941740539611270783496985805228589082943444352050832145327670501490492369022939050723004765931455969640191046179283987195483830444760769163879761004312338129749334907041311885741516214700407684926659061968703918445549578293701037430968211265088660369794401779553147503521634589561994470033464084072974642170329659163261559350803119488174716506381029380767404411424320287196892922407890302713144239570385221025231688755225527320243936308465433950002364369622217567827022101163965947528190201525512489229368701922033452149756327018304221500489077040174007043522453958201650232239831385033015597806683701765940146734971514451769001371605493577282764012715926760938018960116704792735495030401058552797003227419009474378890205362460083544404066882887400724254725664818996006150777563054602020058431743972073860700541915494346554953004182521656593548050036833654056976824100321474701074814518002548601420837185950021091107107932148300115943909811555390001,
  134720454616165200715109141540770890907019050719187824484068698228336638094600672514637620966705006588963063574843460064309072289547381130621054097751067906906035279398904792407059115830826564712420573729296565061165505611769556329186895054363954765303362360531102313984416977405132684548518179656050948329675498540890492691209254831757604774660184932633571046202374717080701560445356861406295242204313838892691769047041348711648767939910408565048114071190203920492788634792034037477281208741286310361081252012004604003423807724563013510033509080470394776870321056209771681157303021242377988413025029413726610183526710287795086327296717602714191688605474166025249360041531162600244223135064768409102368841681157196435022107850414675350210201621205661663955201923341689514954959018321268546153085380174218249457755878901652713538881337587015625365045193262330147023343023519607001374437568795558640012741916538138906850116926532984728139701060301276597903172009487032238382046250083627734869842191000724748953342422193006153382548088320380058551640226103982500542385610000488232004184033465068889700036870888315794008500321533963581308654002548765396117050500021089169884407116500115893735659327668001,
  160944758625996350716084322420345433507022615006322859910068826235647203586920672966217949330868106510460649416018907063362268300000031440621231608226846470806041089834391549065059134480397087114850574316020128137123205613578082728139664054418550339990447970531263652484434482905137349690288731375050108025470527000770483055883183918738104784508608645425453046228344691012397080446025152243095958804315516083094205125041389736027745644560409542396761321073103922758965891634249037528384242879085280361193237205935672503426190415316212143033558259213772988090321154582498523500703023147475891847324029449407290245408330288440617356678857502715318438803014862025268308866232752630244529721584941394102373606658336712452022114952218460046860201722520750793101501924722391515504332018339202785883074610174439742779199969101655307446718835060015654082767730595960147322893754836565501377370112580304187012768743049307036280117154687074454608701062094632258917970009499969228811898710083712663604536273200725251059925720394006156020644108881570058672672344815890600542858646178307348004185549624826719180036908097170017712800321592916734032075002548923565789778900021087236414625684000115843868178142398001,
  192159676058291940717241407886552409607026830757826043541068977159947749100280673496957572480338806512293388388886264063424393788918198120621438258940555572406047832688985959904059156054172905254000574992590694034876605615656949680247896054481108157482076000531447935155752747205142661392298344878050122998802982327930483468472932086539304795615766237010455046257541155209217800446774091919144294204317389723908264195041435420506898519660401062731979706839703825266611189301530037584753433504711170361316371400955463903428802028085732414033611992283345282220321261725089436527303025215844998746304029488023289938653360289137043093853350902716530177529931861025288622490431617160244857350428439969102378682569278545017022122493516519068870201829765496293752301926179280647284520018358066812278962990174671982857684460601658018614739397304015684003864299994820147634010782619082601380406268366334758012796429681465016510117389412838773136301063933817860855737009513194933889846870083799213399970498600725761132085592538006158692096193090250058794844343901915300543334599809566581004187070096725030230036945279744853049400321651561000059605002549075984158711940021085306724175772700115794304691357111001,
  229293335316512490718613544665484967607031814245606772689068115500591117912190664120394924978370706514439431342159078063496909836431090450621678710583453670306055653669299931903059180998405376735950575772391531930100405618045442479688460054552756393894448660531658330014909566005148706597843360952050139986035012400870483935077951930607704710813739354856538045290351818572103370447613085329728540104319482029242046849041486275601946758930401183122377999928303828040481929278136037646910308762008000361451719881697740603431663641137230788033670683251804241550321378384388318003803027460827462099750029529804401797808730289888173668493868202717832977257345410025310393785554230270245207382073274446302384088464995963290022130499753500772310201943263235943224601927716255468783110018377905088206818520174915447680225741301660851867084674937015715173833211131570147957092927775399801383549264248538703012825000371068058850117630871270864851501065819802993576291009526714491094021570083887407593265655800726279256907049492006161397149307442430058918160197545320800543813467695970283004188594841600577990036982435174140643300321709896859938193002549222705115436360021083380837866631800115745042551469490001,
  273442474425287880711023977720417241606937701996225058010068136446094812345860664852326398929137106516951010341592368063581510429883152700621958349692150429406064720640878144009059209825583725467480576670743748450148805620788392341283385054634778413086948060531898429444368092905155583584233205774050159249785247006740484462549203386718704712224786006658169045327209402897050750448552595993696975804321817635263857461041542865695399602610401316667881317875803831107774336470970037715425952963828600361600445452289993203434798189201588672033734769840580101790321505367857841749803029896802469602122029574997490702410880281069808924003005402619233320084973169025333721571399953970245581259510084204102389844487299165510022138997744745320070202063353632072697501929337398198604223018398764021097475900175170634525555999401663812206315652143015747639701720250860148292551061727216701386802414870587624012854479614265568460117879226570122623601067753573134174668009540533103411118280083977269729881255800726805521885645835006164136048291916140059042623838235623100544295246512332466004190123820272299180037019562600328643600321767924807426682002549363782141609750021081458779743464800115696079139750671001,
  325902348760039660711216607184167524306944654233039766384068161100870736383340665711173383558309506519888845058075902063680158613053175120622283398652427116506075226905674737080059243123991416901490577705178845146491305623936936401320450054728633474288302600532172305294185234505163403393867562604050181085846264471650485058578683442551904713814232266742493045368596686292517300449604260928905909604324423854503782173041605814503145803430401464753255112662403834498353905941410037790925516619917170361763816972695110203438230619547261565033804726672667530650321643548257045305403032539262696688155029623867693867696980281157115805209922702620738123727683193025358710973179057980245980512913223007402395971926827214609022148015744536887110202190393428806136101931046982608573270018420692039876659370175438060661274100001666904819246676003015781450070732437500148640808416624515701390169123346158489012884892477297788230118134646189689688001069736129819498917009554656039759430350084068823563821662000727340014923851886006166909037843817300059168239156589280900544779932807541376004191656993544688980037056661174443998000321825645349238726002549499268310807070021079540573101803200115647411865883648001,
  388201816131282880711444651447755138206952858888740160365068190106096554726780666718407423462806206523323486359792074063795128094872763590622661041915866784506087394950673866135059281568601673093200578895748485374391805627549378736794338054835980117807615400532484570912615038805172291440159655316050205827240045281260485731799257775351104715603911956081260045415052091259186160441078101752899121704227330955829384920041675811073790839860401628903491892147203838245006698601256037874093118803734220361943218608015643203441988060547217689033881068236315385880321793868661070349903035404896088454070029676699700347226190281251205562124042902622354769045369232025385473798529407710246406764557188685202310249328392872407021157583517471577590202324757241256669001932849482222643467018443739674608028280175718264063138007201670135082944102477015816655160604323050149002300902053881401393652883213035033012916264607028330420118397300884407277801071768490819214749009569088635409522540084162093057825155700727882824327387117006169716362501686200059295010001175949000545267523005529110004193194322211137920037093730056063157900321883059004788999002549629216290391100021077626240501626100115599038167606655001,
  462144473485188870711714471039405429206962536280369602467068224211080826815400667899042454650717406527336866979304772063929051119430580120623099570751466532106010148073343094177058325933494252311800571026537639716972605531692165415462720054958702564212889220532840450948635766705182389308955214547050233848752724911030486491895937910189204717618243024748704045467175874049753560441209724364680342504230572472584011726041753616370513256100401810797450670261303842383713288225633037965677174410319540362140159847438874203446100003690426187033964352074881256210321957347846701804603038511673320327297029733799114993108370281352578512646468402624091129201483326025414128935547407520246861733990264598202310943233251919060021167732413070065050202466838377891500901934749578832109781018467959638932633430176011804157099390801673508570893411215015853306858068692590149377477428340210901397257280420444750012948622241613320400118667364759170068001073851690309398956009583836292402463830084257102383535776900728434038801515027006172558266629263380059422940178349974900545758013406245777004194735767057226900037130768413282070000321940166305942550002549753678343406290021075715803781241800115550955510361553001,
  549856863414279240712033541950075497206973944553437531824068264291045043335440669282204421150251306532024090307848360063108497351347176400613608549177399690106011777857922307617058377105999637517750571184025797077612905536440988211977316054109894050299018290523245859868512730705193856778451443092050265572003349625220487349729869806831804719884522997639137045525636977583045050441356891220603886404234185541607359147041840070489662023960402012282768569923303846953947310688000037106649618142702580352356286353778235903450598500056247729033105518221920116960312135086068889971903041878941308897850029795493912107017320281461769906997784102625955600539929233025444802772918211450247347243477765149002311681418704808047021178495443768768480202617049697317269001936752171337954176018493406915390494360176319262584695181201677031059338717220015891458764302873760149766800236543862101310098599535000091011981992221307980870118945015317688961201075986779046650214009598904479965593910084353875921658033500728993747447300611006175434994399518840059552033452087352000546251400186638121004196281288863980360037167775422685589100321996967796767210002549872706330491180021073809284070919200115503161386947015001,
  653844935693807400712410646560560268606987386018420984677068311367755628601960661090179011454551206437495492896756437063126641795788032430614199004084682701306013662677457959099058436102803866606820571365031382003606905541882033443964702054125912269208311080523707490238882957205110687408323394981049301471107361022250488317476434679740604722433257012195462045591180616385454150441521376178951765704238211276109654973041936100575145745410402235392158144166103851999000726496735037117744500610064160352593391709148361703455518372343098278033115421287994059900312328271255071426603045527523167096226029862135984317879690281579352228315312902627957135274584377025477629643281609440247865223727821119402312466537271414139021189907366428290740202775824500779051401938862384931461491018520138843712186170176641243992423607601680708533798672142015931166244162971350141017074523525501101210484280487060743011101640199941136290109230433511659939801078174824542698804009614298734925737240084452438262094385200729562039757830433006178346789778743980059682293543827984500546747679401632581004197830848411079860037204750269316260500322053464033289220002549986351711814690021071906701806289300115455653317176563001,
  777060142778273750712856096448508390006910321452221041406067366633450823789560661279722884206309706443879021415113342063147745667789882090614883642980387618106015841395336553682058504088277774899240571572970437535656805548113394419144771054144200484039341300524232911951706552105112164445094969031049342079002195844150489408779011585748004725298521912810942045664636668823668160441705148479116108804242695175644785082041104272949290443160392482361213664515303857566338080413460037129950170685261110352853430127219625603460897443620732830033126215241858064550312538185645835590703049479825021994551029934102792541411980281705937635586869002630105276090504614025512752291023782120248417719913207930302313301389907300047021202004767502957330202943617461709458601941085580624578753018548215212170625060176978376845746687201684547195762825201015972486476606404500141058980234428879901210883158442769603011105187965335002200109523803790338387901080416911239503241009630024662119838460084552814204065517300730139005614396350006181293896510710780059813724132323228400547246846985122073004199384406480035150037241692146642540200322109655583251835002550094665549026520021070008076741510300115408428847541289001,
  922976772763540470713381992265475983706912184401923441171067431478574979081360661501436254734997006451322970711523946063172279491550276900615677103249649498106018358638448022640058582395328831528340571811741347290476105555246668265731478054165071230189373750524830683703131345005113839694335056333049387994509751890290481063892011523297604628518370220983454045746928959329552360441910393487002185704247687576725833550041116108533543803410392755647860095001903863707982228043803037143373494098231100353138530207753392803466776784058708671033137976761695651750312766212912318905803053759950138954432029101179912321269490271842180557153863702632410192760865961025550322365741039140249006898003307048802314188933718686700021214826152020530160203120905593707893701943427365141822106018577698352085508420177331314268374389601688553469572578165015101547850632541810131102447584538477001211295631016715544011108845389590132860109825314150517473001082714140684815729009646087934802945970084655028756213354900730724735282643119006184276558100896150059946328853488685300547748898750956742004200941923857315700037278600256526405700322165543025877050002550197698507231550021068113427962203300115361485550877269001,
  109568238352927580704002526697550395206914375853253694066067507523910392091480661760646231776485506459999136356434847063200786673913097690616596237370292533606021265628479683220058672549112512296490572085790991183610805563408760471735107054188878817312563210525510478190370337005115738963700885893049439890218610637130481202501180307104304632135278189565991045839085521460401820442139535560985010004253244147950853315041129241183252951730393057953589788115203870480934199850677037158131200162325600353451009814746706503473200976972408525033150788826660964620313013845782655124303058393820822756913029109565895933730910271988780443459614702634882720888939251025590500942680164830249635051420903891802315132290047215813021228412036526622510203308189258375824101945893601185886108018608653235575278810177700734907500740601692734009490952264015106020329661462780131147528474001609101211722106109432360011112615408655720300101013515618690993300985067631708203902009662494295053503720084759107136686910300731319319408680862006187295017800777850051008011130026234000448253830393938784004202503361337441580037315473809190484000322221126951630341002550295500856973620021066222773898165000115314821026037514001,
  129998350313034970704734337473701490906916952372447357733067596657785871571610662063540185363623506470106442712948686063233894496395031750617660439119582738106024621129741877651058776293983793730960572400189708178066905572743923315697005054216024745625943420526283222659751944005117891318295875472049498521277900430120481358620744463786004636196642576826529045942249941548823740442395263246782219004259426433859402497041143807975098158310393392246644168259703877947630089049016037174350753609388820353793392165536917003480218405622736990033164741210064363520313282694211872251203063409308594759130029118614747227924440272146484688182883702637534402889865335025633459071520780260241030460803915939402216134752940703424021242805046153906100203505993214480027701948490418089457000018641147576653823240178087343825675619201697095706965445624015110672378349585490131194276311441342601212163002126840209011116501024302892770101045352514293167600987478520597510681009679249554175887820084865074773210788900731922849015162616006190349518592198430051021507502246775100448761637490819934004204068679726033230037352312023184547800322276407961988431002550388122476246010021064336132335857400115268432897568493001,
  154152911034161360705596918483002724106919980033050594843067701079143317326680662417301149489752306481875116326942218063272326720347775150618892016498587558706028492529390074218058895624118472310870572760716203112891505583416057566779045054246963802839139470527161256627012241805120329478889800329049564735204617527190481534393716515807504640755331245118816045105769389244672930432680557029254953104266302452123894451041159959937342793190393761787310881619803886176438082501734037192171300073241570354168423224661953703487881562306681367033179931009229406800313574494131813424303068836373175157991029128376314159664220272316091727384646702640377531332734310025679378354928722020241101813753475415702217199798026726469021258050015982011220203714867709964080601951224222866098946018675251935771627080178491873420011435801610164569808834662014115510493112392190131242746051191067701212618748203266432011120505305289379890101078061996188637400989947961275738920009696359593100140180084972957303136474700732535415497327607006193440303171802410051035122352668254500449272315501302860004205637839842821810037389114125351566400322331386669209932002550475612852508590021062453520430679300115222318815391053001,
  182695481286217240706613098327133772606923535974845230472067823347360653839730662830263985140568506495571484386704595063316918035460848260611031661787619270705932957068004161110058103281828927351350563173953676910595505595611310404656503054282210924524277060528158508799674607205123090267243508307049639482817189771570481732216951645010304645870293203638696045118683097753197600432998719890571245104273947349096619711041177863415412551320394170155521160862103895242199004185963037211744691154109440354579090503165392203496247381383680544033196463214603708640313891116819974554703074707210831137766029138904001064958080272498454326807285902643425194769458661025728451558375507890241177835911388858802218331091806546295021274194096859950820203935389618377273201954101711673448774018711039827903574110178915084369438355601610639137125893574014120541378849728660131292994231271943101213089784428081987011124631388538427440101111664333854949800992477125478343714009713830362778851160085082780573476389300733157110619011140006196567613935546730051048856027611197500449785859769045366004207210802524619360037425879350793230200322386063696109126002550558021084722320021060574954719028000115176476454485777001,
  216405110742781980707809597093265080706927710212023559558067966439863560644130663312095402485775206411150348934269574062368630613732788890611196371873360348405938103240850111644058119047934386169300563647398618934435805510954100650241918053322348910490216570529290695463247384905126215103923837102049723830420173348020481954770219344746104651607234279287888045133123201680706360433353410947518420704282444119186223767041197701565813287530394621280947561998303810522681401040411036233236595451104820355028643371409658403410537759799765302032214451320877830440314234578928605515103081056412685164952029150255008613923070272694483068002291402646691326183198964025780883252787984690241258814962853568002219532501387561213021291286865869065480204168163621340918601957129881702336088018748587834288144760179357766610736862401611134037505208744014125771954749777700131345079012124063801213576562075990416011128882480332034000101146180177115076800995067202930917553009731667884581131720085194570640920623800733788026508621481006199731692963286680051062708869046764600450302265522667619004208787528628249200037462606942834981200322440439675832431002550635395885401900021058700451130145000115130903514582605001,
  256195964558140490709217673813303631706932607729450127261067113381871202321420653874001391030306806413002702368520954062428573067259581280611386717738417372205944032392815434145058137157900172322550564189583878980814405512544495367633561053368037100581389030521057554285042261105029750564588889035049818973378330027440482205048490639325204658039365218685363045149264191966533980433748682466196282004291884394029398233041219675989948204590395119475818862680803811621988336599080036256827702437395050355520615001344162803411533913437698339032234017983048711030314607053218019636003087921133613029724029162490589019530550272905150044525139302650190754195645798025836890491664016930241345055210108171802220808104673189597021309380441610800090204413823438723826601960316043505831945018787975717925363260179820740344091901801611650062629786013014131209360228391860131399060216102206401214079543841005690011133261857518572340101181630561375325500997719401527251528009749878250683628740085308353771836452900734428255655084110006202932782003437130051076681214585123000450821527876762000004210367979033436200037499296152990575900322494515251638033002550707785582673780021056830024997760900115085597719854782001,
  303140205215835070701087387901149771906838350911741763527067132950752353452470654528966120071809306415155320356198313062498022149270325080611606586916732150105950860533015190807058157950866540006020564810217836596883505514359516948795313053420021125408101020521203303629820469705033749001381608190049926251233065466440482486397783958235104665248229702935021045167299830282898110434189020580042743904210236930795783178040244008520391399310395669470686861369503812831940054286194036282715026575581620356058846062604371003412620451572528090032255295720557881470315010880040808159003095341272398544019029175676317411044380273131492780026484402653939257179311529025896703524365006430241436878467625923302222162201029822669021328529604510189430204673033108252384101963667833782629823018829286542943518230171030485706892849201512188031837674205014136860961006274010131454999367747188701214599204074156053011137772868734866820101218036912902812500910043494750775810008768467624458531660085424156442250597100735077890903754496006206171122457713110051090773397464333100451343641832905438004211952114645658520037535946240926177400322548291076678141002550775238122354900021054963691071533100115040556818616921001,
  358494656333341640701282092897124097406845082356661885376067155818029593520790655292026957608488906417655671661654311062578447584413574260611860440988555128605958720398451621086058181813702973239010565520341709604063405516430008074525624053479143860966451290521368569931492524305038269236797149122049104716453045418620472802554948016730604673324620500329356045187445202717864590434679390067330139604211401044684047798040270943173252912090396276453399180813403814163250621786572036311113319631335710356647510305824439003413805231785473223032278427672840404200315448579626568134903010335966385115652028189882380332643230273374618380687202102657953620428131609025960566547373851930241534625002007202202223599322451244079021348791922332625870204946488316335153301967193228629564386018872606797947346950171081100065080410701512748792973529270014142734355326516740131512959734843825401215136029024950020011142418935642786880101255421054142313200910321508563823708008787442240858517780085542005337814185500735737025452299339006209446955365948630051104985746539724600451868602280674095004213539896398959710037572556474424029800322601767813784261002550837801070035850021053101463528286600114995778583027264001,
  423731858189249340701510872091670219106852968132085643971067182526392294468060656180590923769913306420558539840979746062671540467076446400612153398068869719805967763799924348529058209187537178380990566332507294668028205518790925405578160053546357731071108090521555890603072153105043377338193978441049118339354798392140473157691798806495704682369592796763953045209938984381226120435225283577136491204212693088801074518040300748281437021220396946111553067732803815627630710780818036342256599744229230357291142176171940603415096764886197883032303568409838952030315922865219835862803011202228363428790028205183882381012510273635707935093887502662251696547156974025102873849538827670231638654518624137502225124245241703803021370227881118470260205234917781938744301970900557278496703018918026523463184190171134008842014991601513333223262701013014148837380315050160131573006370276699201215690517086641725011147203554180424370101293805209072362900910606107938897133008806808406798592510085661927353750536800736405752846547489006212760521390996860051119318586273776600452396403998660422004215131285258721380037609126129345695500322654946135255247002550895521613177790021051243355983058200114951260808793976001,
  500576220591422400701779551125490749606862201544691437548067213705645844349570657214798656084521006423927121335491353062779245726303983210612491326823014929305978164287682053557058240575151525630260567260977713570788505521481872250779677053622738518167067000521768123089489894605049147482007804837049133681912688359110473556464070369127504692495584635707488045235045935781220140435832775728565439604214126633967124404040333718824857282900397684678727701688903817237876496743227036376399806458518450357994666610393698403416504266730411977032330884801269278860316436657127179102403012137846659598087028221661172051668220273916021175330769302666852469229918453025110149387420384300231749347197155937702226742002239645094021392901021747188760205539084695409160201974798516333213460018965639443599343860171189307230366846101513942230208332169014155178118486572910131635206154694914601216263179045332009011152130295827916430101333212008600429300910897421111413470008826572501534770530085783949594785691400737084166976310758006216112060803712400051133772236726492700452927041655492031004216726242224398120037645654489594859400322707826722648070002550948446563221950021049389381499946400114907001314885471001,
  591046089238974500702094928241544060806873007498734118886067250086348610573070658417942831121857706427834284059102894062903799223581390320612880953574929981705990120179138920107058276549358789301480568321954052949440905524547698127604975053709500861589128490522008483991567738005055662917709908815049150954583863493140474004065685774233004610382765537623201044263059653800116740436508582546909552704215716638890965541040370178975036321380398498984816806664903819007966149304207036413820591606445160358763431181642638203418037713950033913032360556948669435700316993097732852809903013148113943965964028239400187922667420274216901413776518402671776120600202906025117912363742900240231867104778242673302228457895604926340021416878082350085150205859788214192427701978896184522427208018101554310204287430161247093998921226801514576752511968525014161764904398574670131699627839997120801216854538332941732011157202808887971390101373664495996981000911195578223149426008846740977039540100085908099375061680100737772362071175057006219501813468015910051148347013546255500453460509810852300004218324728332212410037682140847079766200322760410266571482002550996622357704040021047539552602774900114862997943244674001,
  697502669137503940702464932772232244406885647534940852173067292515529425531780659816948974587587306432364009303067837062104777012636167010603329984279882791905910385799641551247057317762483021394240569533831136484525105528039173355482201053808015642900524460522280592821654534905063017042636655545049170392773820315380474506288906046477404611650485414653349044294305602257232160437260126742788617304217479586826275514040410484872993497140399396510809526355903820953164532239306036454821256675454460359603240768080384703419707903876336572032392779184526229530317595567546073639803014238706862151126028258492826366244990274539780770840920402677044102303497536025126193610916620080231992351703577787802230277510193251077021442229146798326500206197865017469614701983203037985413336018106783900251680980161307471612498517001515237761018187045014168606331456095050131766342093648254301217465131284094799011162424819781167050101415186132368321800911500711340239535008867320358374093360086034404218032705700738470432696263367006222930018826045850051163043227961182600453996802916503003004219926704657813240037718584501675257400322812697466482377002551040095062380470021045693881285566500114819248558507186001,
  822706895413732130702898808820931162306810042565295254310066341974794773881770651144292771601970706337613042937411914062121410928690707440603847243366396021205911963636757708779057364957087071552130561091748606108515805432013747781116348053919829480786074620522588520921366191605071314600015254862049192259698287053520475069590971110333004613068173143988440044329144449404512670438095609386331723004219433635163664396040455027660917771620391038544839571645003723090136780255486036499730848081776480351052039493376431703321526518955510466032427761143049353270318247702346827687903015415712441232282028279037332043904600274886185709657317502682679210542241228025135025795488813930232125536311855154402232206727542415681021469027799500721650206554190921783219201987728966107265411018112263275382486480161370546355392367801515926259683755962014175711258869880710131835421543839325201218095507396946138011167800134356067180101457800802167936700911812954471200537008888317244057221800086162891856343987500739178473747969590006226396915883392070051177861186770947100454535915317307907004221532132318893710037754984761184411900322864689030484695002551078910373361750021043852379022838100114775751047723307001,
  969885510914091940703407328042966032206811769503605168893066399601179587312200651333180882318224406343692785468201488062140620445404867780604442831714629668905913775045231446541057418978105837832590561249660356724357805436536403803418999053104668658334540980512936846130581341305080673013833574887049216849562455397890475701167908619466004614653000827923812044367975742269777770439024088578524542004221598779133533401040504236789845799020391147476480217970503725437071471417545036548907422619888310351152172822368736003323506195976315904032465728907457520840318953411501209014203016685656211576661028301138712508875260275257742894566630702688705665258319460025144443520283780220232267132093086408502234251740495920013021497351286753877340206929682559797464001992484287921233437018118003421961379110161436428458413523401516643286571851468014183088818770656600131906940825501933501218746229597993028011173332639214228650101501532818746262000912132443584980918008909738306430892870086293590231693626200739896580449665747006229902743194422110051192801192339097400455077841252258264004223140972477773710037791340941299899000322916385675131434002551113113619252980021042015056779711200114732503320083778001,
  114280780454555640694003036020982555006813786581444367783066466711146573361230651552506880579432106350731454568868191062162794325629429450605128306334383052705915853696053451787057480786564017418680561429804280362971805441680615055205920053119055323379653140513330713861819358905091223875661379794049244491091538698370476409036254314416904616424041877546645044411241950564097580431005556577623640004123997030897266653040558583627425878360391267427329907157103728013814169518086036602740496263678880351261465358908750903325660600451009832032506926238952338090319716897521598645003018055532149210376028324909178311522600275656185391084455002695149193675903827025154483431838364630232417639003906805702236419068490440427021527280684895548670207325299124399496701997479769096065225018124015767298640240161505232229628502701517389914871860882014190748423482232170131980976627188956201219417874510904464011179026303050141410101546406929938582100912459316629032993008931590292022399490086426527494677152000740624848347381294006233447738847690270051207863542585832600455622574855498962004224753186343942510037827652365564891800322967788125228844002551142749763302020021040181925021850000114689503306649340001,
  134587468818439950694700537406282746006816141402340285984066544828197181357770651807056553181050206358876558304497203062188378501995206400605916884639257748605918237984100113409057551475079171163650561635225059298208305447529423423026395053135364521685799640513775905306022939205010311460014049318048275551450143062040477202123501871094904618402474343336447044459432915923089960431120108048654757304126652615415063082040618585391858034250391399470985091906503730842012170239436036661653690465291830351380720917435079903328004506513627309032551615892886065660311054267695155592902919532834549641211028350468610078766880276083359225941793502610203711842787414024165184333386907220232577584846595304802238715573534665663021558901075520676730207742044180417893901910272663952678317017130312195610173130161577076188884378801518167253945314208014198699772956223280132057607738833235901220111032729406901011184885178006168710101592448323690958900912793713547406722008953880021903091270086561732004615152600741363373305456825006237032140451442120051223048530981267500456170110157356126004226368735176566210037863918365333759000323018897113643608002551167863405552590021038352993725222800114646748960083877001,
  158422204743247210695516825773504091306818889193550883068066635714623615816000652102349517851792006368297722480358285062217884262740061540606823676588969259605920971672690653326057632285375593777280561869372691683436705454176648559974666053153845852775529210514278913575287365805011651026763690564048310440591794909240478090368181660450404620611805223052564044513090745578244510431247281411019214004129592184598697103040684809440269811900391544781642459153703733945271348832983036726107591135093870351510810871304229503330553882724023387032600081027979364910311143560266010960902921125591950368280028377945054117609010276541230326727834302610939845049958145024176587303660654720232747526714644899102241148476908014413021592301728028301550208180967546302802801910823661154780202017136905064490170920161652083206212384801518976450398491054014206952862371173940132136915100395884401220826309094261301011190913401042530510101639682633723905500913135776298862834008976614392043586440086699232329363627700742112251502171127006240656185119203280051238356446539146200456720441085365109004227987580286954750037900138279732313000323069713381112470002551188498785005270021036528272385694600114604238254391233001,
  186384059745024990696471665025180397806822093997238222492066741408006851085600652444748897513115006379189921449068659062251897578036937240607865948394463361105924104623618405834057724628062097697210562136154901774884705461728245685426536053174780374425640280514847028676007560605013159567450524291048349616084208041000479084830557105230704623078117831982182044572815193177718010431388420378364847704132845051387408918040757877942129182790391704643150734864703737349326075587491036796602836596183720351652679579789163503333325984191954723032652626714816222820311240088763522823502922842403225982480028407475248176039260277031891861647648302611726398723474041024188735821778314140232928052507834450402243725376608821159021627576289776708150208643167248184708901911402189878782670017143807221910723780161730380644205218901519818689182261601014215517989898922200132218981851416160001221564322974369287011197115195322392160101688135945233661500913485648875004271008999800373665476460086839057245107461900742871579425343841006244320109455466970051253787573811039500457273561465299853004229609683040996010037936311455617885100323120237676054547002551204699781782240021034707770028449300114561969184655571001,
  219171481514474280697588030201344371706825830043123654103066864263151630663400652841586961703792106391777168393395835062291089721338034870609063421956132870705927693623663818448057830104957711107260562439996127739109705470303829288262941053198484448477933910515488432303104328405014857761357310074048393588460531245390471019781502510174604525830344520002306044639269573421171780431545006714508897104136443445525720210040838472970822618510391880458843196223603741082223238860400036873683451993432470351807350230798701103336339451462963994032709581550236202200311344413037162375502924692475986776440028439205179081744600277557572000935304902612566641565969573024201675898516467520233119782519872011402246454265582665463021664822984133420730209129791548800919001912009523568647090017151032023762968790161812100504464496301520695194719726729014224405764641060280132303893381474699001222325708552043696011203494871612101130101737834800630802600913843477318423635008102344501358942130076981235736136761100743641453867912681006248024149541468430051269342192880983300457829465022201753004231235004861549000037972437247538993400323170470754386094002551216509919293250021032891495217252600114519939766785250001,
  257598390953973210698892616715769352006830183329570834921066100700024736607430643301308998243067906310631672866386135061336229360591443980601043861474048508805831803319972318099057950534283836009370562785903887575115105480038382376191220053225314042287034270516212303553387838805016768740982926351048442927151933975760471144300541406230204528900567237611370044713187261468063370431718673903154173704140422792974114343040927342049252439490392073762215310103603745174521494275280036957940448905773400351975931129607684903339614416637044274032771299384660612370311457134195372103702926685667419174060028473290674070623860278120642122539981502613464042139429645024215456214261132310233323371101803201302249343550762656292021704144816716341850209642041053854848801912646989769308385017158593351954736520161897379578216901201521607232062232746014233627114738394140132391737381582173601223111115112480927011210056829696628140101788806205316022000914209409740865500008104755543457964520077125796994606287000744421971923487501006251768540921059230051285020579360590400458388145381410160004232863507230803660038008515017694796100323220413379337938002551223972366413210021031079456063543600114478148037260166001,
  302612824050717590691041642837557033106735253443939680449066117276015528358370643833637990262321506312310392830429069061388196317127571760601201722540226689905836507278222407113057108797908002806850553179543418077585805491084173165136073053255669538070657390517028936774747857305018918373891713163048498267062505768900471283561449036958504532324348690705890044795378832752505210431911222120373635404144822021048091573040102530418824732000382286228516990463903749659506943184469036105001571026625940342159622465980571903343172617222084252032838161169830040330311578897494061879302928832527714063477028509898027713100260278723625485827618502614422280343007562024230128263954772230233539508404505705102252402072954645799021745649790132148610201018117089844915201813315972216880606017166505633079979750161986359601199299601522556108074343761014243193295656320300132482603896505329301223921207337470156011216805559810255360101841077633492789400914583596341401389008107213883568473900077272770420277886600745213230981880040006255553518586671090051300823004384599000458949596069592135004234495151692602510038044544135894268800323270066321275273002551227129939656500021029271660235377600114436592052882496001,
  355318511052546250691219545606844441706741155657499750695066136516784891270260644449763027627077206314247763957065658061447997215876294560601382857113535866005841889179237802599057124477924371113360553627321586938897205410361290360360763052290001108226415490517949872898864534605021335575891641119048560315853612463480471439254911234963904536141097083183097044886739903922924830432124634629178137904149683891559103867040113325645974998640382519687334422451703754573426534068268036115060618214335270342359723594301189003347037518257056400032910576934897696070311710395416619659202931144346237304935028549204666447052210279369206398218885402615445259506946612024245746509366641460233768922203723658902255639127601558750021789451127528328590201074849301631378901814017913001344196017174783857675637340162079187412915214401523543172648365368014253115898649087680132576585378042620501224756665603377183011223745644082565000101894677034016744900914966189424616313008109720249257477210077422185620246092300746015328724611660006259379316965381870051316749734606885500459513810515772784004236129899854727780038080523979515091500323319430357520127002551226025105355300021027468114966203200114395269890530815001,
  416999844424967510691427146074881298806748023335260624092066158840517911274620645162554782943890406316482653618077668061516783279722680870601590608349566603005848044171633861163057142358764234028520554136481195219960005411781811690411221052328814721099374920518988045749748061405024052658906781481048629862011620122830471613259261126049404540394467729313229044988259741155271870432361095725965102404155055364423303231040125218115016302120382776136242262809903759955740577576822036126046839548453700342577640863695748003351234443274895171032988987899317137220311852370957419843902933633200605290968028591399852831772910271006023990091408802516537119133332109024262368539028386240234012379811232318502259064486462260665021835667505285591850201134537849462974201814754314803929080017183443600081920120162176015120366781201524569819949019984014263406859405924150132673776739261473901225618186283437150011230881757999764820101949632836281478100915357343418804330008112275375787461980077574072408646739400746828363120398062006263246169905073040051332801032196903600460080782052365561004237767713391150720038116453933462329200323368506272176140002551220699981844480021025668827063492000114354179646917517001,
  489150754726301370691669287635122435106756010706854648794066184729429860492510645986811836942101806319059622338417946061595870553644311550601828787029280872405855080400257224481057162741080035137880554715206917833440205413391789433662833052372678848790721660511015794498001205104927105717258550150048707783780322661130471807660613236366004545132805126331356044110103070810268210422623010380011848004160987994412059415040138315354291660120383057755613325970503765849395869892705036138042334257669920342814896037665658203355790714712174726032107386873148629180302005621121517319002936312008837501395028636685431748332480271079976200114455602517702248315817800024280055236191512380234270690075866005802262688420241683282021884423295188324440201197326001733373701815526743211467762017192501038922396440162277000266368560901525637489688886259014274078466882068060132774275409709625301226506482054394294011238218671881406690102005973956140581800915757214894172441008114880006149352930077728460806348932400747652432420613215006267154310660690140051348977154836581900460650503916202130004239408554044247570038152333390126845200323417294855955818002551211196341643280021023873802917213400114313319438349498001,
  573508091075836380691951585054141716506765296051190416348066214739326702496440646939542152942500506322029736189145036061686762881248668280602101735210579129105863120732605498758057185965472331525640555372744274827431805415215787496030745052422231956460334640511147579746284797804930535056454070662048795059047552121820472024775083706517504550409629414031495044122625863228161420422913025719494944504167538363942968283040152735038328935190383366924679630869703772301121030418947036151136173474265630343073135345438142703360735804412111936032116572996266300980302171000653958228702939194584767514411028685276620887781350271159100047973296902518945299871939598024298870955178452830234544705478288511002266521722210239617021935848816421643160201263363439987230701816336829110049403017201972978220594400162382306002551298201526747668435220768014285143372317742280132878181391612642401227422282207522668011245761252372527680102063729801865609700916165962581050082008117534891095080520077885381040630075000748487635154731271006271103971880599780051365278355717644200461222969249562177004241052383626978860038188161749343527600323465796906010274002551197555613641000021022083048508161400114272687400492079001,
  672090191713142390692280544382202937706776085355092602552066249510556878371000648040284583160527906325451492045169828061791177997952193740602414398305355079105872304708130930062057212417648875714930556119533187749617505417281463576489060052478190861273030920511295976916184941404934385669002138549048892776284379036010472267173305069280404556284171514770462044136527417579951170423234054530865420604174768555052935793040168605908278782580383706238945951519203779361745779037692036165424966967807650343354139210109053403366101494909282501032126512056625339380302349426012923138702942295696903963726028737402847990640360271243738630415404102520271205223168866024318883706514827890234835324323538235202270575732851942158021990080597755209290201332806521846300501817186271160369111017211876869170242990162492101267166056401527901890948793089014296614598448175560132985597317070203001228366332964065475011253514463951266680102122930280139772700916583747388103370008120240789169764880078044863544834283100749334070125748936006275095385593047880051381704883539370800461798171101202744004242699164025033530038223938418349258100323514013225761233002551179818885283720021020296569416136400114232281688136056001,
  787241431853771670692663701048595445906788616514678886234066289780551584175300649311475949482617106329391870964038238061911077151879086620602772406665819764605882790738371743411057242534230788444750556967357854982890605419619947390218231052541360058754579910511463018971491439204938707762241302692048100214664509607800462537707464109101004562821961646751555044151954530404759910423589300952867820204182746663957192600040186068772499213540384078529064816014003787086546005794924036181013473884408760343659832701700868303371922052228816195032137263071319337260302541879601744733602945631130943455214028793308637428667620271334256567875350902521685190059451668024340165351246807610235143493035536955202274862365582037911021104726165028549620191405818553700770401818076838357225892017222230832576630800162606560967800937101529101741555371096014308505548907781130133096628506263421901229339397795127370011261483370451987290102183605802087068500917010732420551660008122998466743505080078206938958014084900750191836405587284006279128783192718150051398256982506782500462376102427386668004244348857198939140038259662811740715500323561944624735525002551158026904761540021018514370827982900114192100474967922001,
  921683652458451990693109778830679188006710316415793733225065336398177962195650641077886998795467206233927536947058782061104869871624225250593182167899244877905894758589254262291057276809284585647190557929514879647909405422266263735403124052612642124953716270511650980220441615204943557343674554934048112451734690160180462839541113241182604570095476338651315044169069095436688570423982288562150902304191547361881335595040205277593973085110384486881290275258503795535616622484255036198015260747762750343992296766503933303378234410979946421032148889471479948140302749414275714602602949217756148539450028853254548853875420271431041276532095602523192790826650104024362791804864564540235470208557915015702279394133576441252021110754175112041400191482570073489640901819010372675688183017233053681986971890162725866169124935301530348855550506099014320830017831653390133211383026685877401230342257746056592011269673136603953270102245787289336608700917447082998385374008125808698042774050078371638124555534000751061033330474841006283204395427394650051414934892329258400462956756092911006004246001425186137680038295334351431980400323609591918401823002551132220083194530021016736457545483800114152141953343139001,
  107857550671885110683628872773048616506712004517801583795065390340160492597740641247201529058789806239146200605180803061120659631620835390593650971282046222205810841218070926303056315801668118433110559021001805630744705425259805555440199052693049314552794220511862404084581404104948996869865373542048126138645994587820463176182029788321904578184849547572001044188049601579917240424416891064370897904110125250615921907039226400671778140630384934659636750619703710477427433174884035216553410207112190344353780287519323103385078372573719290032161459416515734800302973158140512388702953073595815465024028917518170779882030271534504310881349302524799872077031914024386843251270416670235816520865673666202284184177756738476021117107773840244920191563239143903220301819988791806508290017244364947528043500162850204285775374201531644920638273697014333602199657562490133329971753410783501231375711765351316011278089029585583380102309506180121824400917892966674582554008128672265181410990078538992093786653200751941760496311226006287322452384722660051431738848219555800463540124872133483004247656830103024860038330952466611937400323656955928009739002551102438496820570021014962833993120600114112404334062451001,
  126158091337794300684232659575066217506713962507929774548065452729860865696380641442480033266883906245148169800910265061138768205983586300594187105814231846505812398274299312275056360143288843159370551025872846392159605328644862721229052052783716488046171500512100133961325258304955095965565212788048141441925126677900463551518423676053204587178653998314459044209092774091852930424897365823040335004111195180591951917039249621924403205900385425529878915008403711487349260570616035236761284261597400344746713034492514803392496817447637197032175046129584905510303214319660059931402957217902068676676028986395172107743940271645082780470442102526512644724764347024412404367248650360236183535592380668702289246295976097694021123803381807936260191648011656350568701821014091983434858017256184900469786990162979769280507735801532991678404639254014346836699131677480133452508430407091101232440577038127188011286736420594334610102374794435414381300918348553253323428008131589958191213170078709032119569579200752834117754013887006291483183479080590051448669080893272100464126201449999482004249315034146958960038366516593701540200323704037480431223002551068721889180490021013193504225693300114072885846151184001,
  147494798012114570684934639468657723406716232525261625752065524858746274663690641667607475251921506252048112209729506061159527553749225010594799993645818467505814173237384895689056410548384377013120551166175380538442305332471212892737083052885915515435453210512367347513602984204961932220418138323048158546624022444210463969858822602919904597174759423588148044232415372146445520425428390478233080204112374354703980924039275142283321557470385963485538906205303712591037133331173035258783345950850380345173719565928378203310053593223613572031189728255659432560303474193092623363302961671235231859422028106020041476212530261763240844617718602528337685250243057024439564557912979400236572416777774935602294594973453003346021130858188284439490191737081646044360801822088350905137299017268534578533938900163114761867728589601534390925826122425014360548541521248250133579109732917045301233537689324179260011295620786432230650102441684545092351100918814014808200067008134562575052115270078881789659875964300753738205204845655006295686817438546630051465725816568691900464714978423066323004250975999598232430038402026176310880800323750837408004193002551031109673304070021011428471935805900114033584736641516001,
  172359995923677070685750414182120305106718863131218305959065608210920999496220641927035726929761706259977057979832014061183315933819238800595500340820268166105816195804594170643056467823948143532630551325155120025154205336794781521562327052100107131971149420502667594754695348104969592071329917190048177658313845846600464435975994886591504510828127499595603043258256157113669870426015102928741777104113673538143108670039303181205896679540386552876018267568603713796864377454302035282776043779463980345637634149627294903310924545288531536031205590243619896350303754164275062552902966455548038841457028113926913076507090261889471289121507102530281955899050161024468418203627429110236984389740844075702210024541450139995020138290184368162690191830651618566007801823213730754527912017281435811967221690163255389722534944801535844516814449795014374753183037560690133709895330908180601234667903300676236011304747711107088230102510209534142568800919289525700420640008137590921721962140079057296376346301200754654123195727286006299933582291981760051482909276967068400465306448300527723004252639688822012530038437480665196140200323797356548378445002550989640933891990021009667740461224600113994499270357610001,
  201324002500080370686698006239293691506721910264523081342065704491147035760150642225864200056803306269084674311995514061210564192565466730596300307518968893805818499611991651357056532881437215608910551505230552226442205341678378833782408052113077974085303370503004840334560424704978171779402610304048199005286425566020464955155304162433504512061758390713270043286878047153496770426663144974519269704115104518612985200039333978317409695080387198437043905313303715113922365062144035308908763438898260346141516772689579403311867892477337761031222722753906774700304055716776259558102971594274961826386028122395816724313450262024297189153862002532352825923364001024499064918916812810237420744083630374602210621357560750593020146118197446569500191928932888283869701824392481318333191017294911250398989890163401867695384978901537354363797888980014389466521472449780133844987953612340701235832092909519179011314122887449448600102580402968896673900919775262597005372008140675812165861450079235584133832662700755581972314531823006304223705356208200051500219679313285600465900603505236060004254306064270247040038472879518216375200323843595744363739002550944354429499720021007911312792100900113955627729703665001,
  235047192171274760687798225587574590906725438334628582783065815656837123386900642569931649477977306279541847882056461061241762882277598090597213700258243086305821122742503144879056606749915380677040551709124571003751505347192522492755728052127682742033626950503383510475980352504987778511228432722048222840983966466500465533247927171733304513431547877336501043318570475091770820427378709941363965404116680199812146531039367795192765606140387905323610105088303716552079540387464035337364851705937130346688670316621590903312889398096504569031241223093345257220304380438441952134402977112426949329820028131464730304059330262168273662733791402534558093915770931024531609823904349790237882836831222326302211251619990533575020154361927007953770192032145929008313301825626943209841949017308984390503717070163554418032528059601538922439339972888014404704907051747220133984513455164805801237031151709402345011323752118745268630102652298963300708300920271404488973449008143818068385121350079416684999925360500756521853385364504006308557413223303060051517657236336938100466497436374723517004255975088483538070038508222200290184800323889555843780125002550895288594715070021006159191578072900113916968414454725001,
  274293882744021530689075090395111906806729521473172388082065943954568713019410642965920654666440106291543615642419826061277470317205015390598256188789602203505824108297668060266056690590802159573010551939901691381165305353416355593197976052144121392739699300503808545055079163704998531535315618063048249446679886653610466176729406284940204514952040733177271043353651968029536480428168594636969710404118414703129984795039404917289260585560388679145612314732603718122045087915080035368342717732843110347282658978152317203313995263979898561031261195678857038450304730028354454201502983036691881805573028141174064079616000262321989719381887002536906011287626155024566163828835892350238372095713593818402211917085310474837020163041981852822400192140520737277880501826919551197826307017323679604489092250163713270602323598101540550777796328086014420485153509028630134128600881356327701238265993232608715011333641320384375770102725932185217858300920778132709518311008147018520445761630079600631244463283300757473867463826838006312934931747993860051535222156273797600467096939162221490004257646724092982150038543508183352225800323935237699310389002550842481542335310021004411379135236300113878519641550324001,
  319948311636701480681055630982091569906634244965718895989065109196174114082790633421476484076421806210531248972881842060318321687272817730599445550788638123905827505040833741216056785714418202228240552201009679663015105360438670690196538052162617637171541430504285455371583270304911056354549236382047279134435836468740466892764052456639204516639283874711829043392472968746106110429040256016818421604120323478248738663039445656042679342500389526006383043578503719835437591200562035402057017302471240347927328021656421903315192162308220354031282752531874399530305106304232068876602989395541069364504028151566807853435070262486070208775264802539405306946410227024602843932273196890238890022595167868602212619596092771953020172179918754205340192254297208682149201828272837644708961017339022169430977360163878663127581015601542241477010333924014436824549383080990134277382537511118001239537551346576161011343796521524729920102801337862764076300921295630952170179008150278006506601820079787455339028186900758438115832266017006317356486035165170051552914642867669400467699104037678671004259320933821979370038578736946309676500323980642168354705002550785971065542450021002667877452996500113840279744890852001,
  373033008790047130681227383765714895506639706889098846618065126263408165725100633945342269773678406212110222803382271060365039364494564900591080194779211787505731368120460548272056893598539374922050552496326106987136205368359051730105027052183421677301864120504820388210056185204912402212431134190047312250362366091670467689275762315709004518510976177713585043435418920699340850421000187297011287004022423423399781054039490351139944166840381045254435591382703621704859055804822035438739926002926660348626824954693308003316487269624474283031306013805379385600305511210294392446802996219342133203767028162688686502517520262661177874447719102542065213228911345024641773533562327440239438197058202215602213361084811044438020181798282617747600192373725527638154501829689436057125177017355038297476915320164050841424055338201543996700048349363014453740869542543120134430994057503874501240846780620268500011354223866772510170102878551790676288900921824085288943732008153597372846917450079977189956422868400759414699995010690006321822300427473540051570734895372648200468303923088776732004260997680488007620038613907974998495600324025770112887368002550725794640072390021000928688200797100113802247075136612001,
  434729916986162940681426450698818764706646019983118915007065145935980019612600634547512671098731106213920210856733618060418444553852223710591234823626104625505735759883227006629056101590919618304200542830210390925654205377289147035772524052206813248655344190505420196854719472404913907136076626168047349178213341940600468575025865396936004520586632705343367043482913640314965930421106241367021007004024733016082682066039539372982560377240381146597810069674803623743974696389801035478642507682371690349385622224131207203317888303189199461031331108345604331510305946825621173095502910354047863042666027174588324337765480262848015517815705502544895493149543050024683082760207862000231001828014632218402114143577903085005020191920648194016680192499066571048757301831172084752104199017371755166940327280164230059645235140501545818676975251754014471252386941189520134589574473928870101242194656695385471011364929617878046980102957610336712841700922363684188469446008156977473893664850071016986797013343300660403721673592895006326332598493071420051588683108555745400468911388321945004004262676927004368850038649020762139716200324070622399315705002550661989426383390029991938127347321800213764419999509553001,
  506404660350423930681657075742606928006653313789335543433065168602129925565470635239408489260178306215994177309362872060479470459178748060591411031811470663005740750787761417776056115452398220323720543207561952471937105387354087918748293052233105001473230190506092519787900905404915589363804399639047390343347088780870469559698674491629004522887764683081720043535423002302050120421223170897102103004027272455120359411039593125356201606170381257415499015433303625967598916432646035522036184976923380341020854153665312503219403559828087389031358174290549779510306415373033931292202911139347680089906027187317418755449310263047328278056878602547906469025690079024726908810809087990231063201827476241202114969200002313952020202571663397087200192630592326283385001832723630642175176017389200954308023260164416580533562217001547709706671046058014489377884607381990134753266289434333101243582176662446148011375920155447629300103038550448085866200922914618534106539008160419172248267990071036552245377558400661405282801957222006330887603013442480051606759472699901900469521491663372150004264358636381899560038684074807295522100324115199898340885002550594592271818690029974632521040388600213726796901597627001,
  589634418810098360681924146808920112506661737094029183257065194706546553661140636034075013666949906218369671381149377060549177155595963930591611753560255051805746420431092759721056131155816521895310543633885185221997405398694069059529536052262646256978093780506845867876198803704917469160858204354047436217090375728430461065399547412939504425438076674770655043593458965946181600421352053237079342104030063814993423849039652048322957759980381378560377875986603628391787939336602035569214319164608260341110077991415500003221041957434017690031387359707602151150306919228531170957402911981513983466249027200930923672690230263259906033624211702551109052544653512024773396314240731670231128124731412240702115840178344307433020213777094285128500192768586323933634301834347033142781970017407404867184105070164610675678224509401549672158689309001014508136667871220050134922215549235251601245010359441779008011387201980671193890103121409657925237100923477081642035954008163923338712966070071056418668052506400662419485521657494006335487535971345020051624964173607372900470134224960016452004266042771730652880038719069616825321200324159503484821005002550523639712765730029957370070574785000213689376181161728001,
  686239931182197740682233291131609626306671460717544573496065224758370578350800636946407239883867706221089448613754815060628768383592642440591840311596348062505752858701323754486056148939392808452030544115362010474907005311146610852860511051295827179022760350507689720929749646504919569037539397280047487321544793836310461186973774973924304428263682543203815043657583972729160960421494068710782198104033131213471960898039716621354034528410381510959139397980703631033939582083366035620493907088055660341206793760167277703222813079295501748031418823272666893320307460931309718468302912884469007929627027215487243263132350263486585931446402002554514776339559543024822697705788215070231196789685469349102116758847354987785020225563871760442340192913344085808757701836045368205474644017426397178193844390164812625779666570001551708475158247496014527548576832988000135096571914817967101246480246169454040011398781717065931020103206226091773826500924051269279331863008167490852316718210071076589412253243700663446432177041857006340132618538869970051643297392603486600470749579980613553004267729296261547510038754004703841716800324203534037636081002550449167976812540029940150780496015400213652156253945186001,
  798322223426554250682590984417711082606682680697855093771065259340304254735250637993405503241941006224202174108350683060719610506166188890592100467197241413205760167071598395474056169071310333749510544658932877107716605312584600723231308051333083405591099480508634634609212184104921913990047827037047544234878815760500461321998053353630004431393341918880422043728415748218159800421650510099916880804036500993643831966039787366722051613620381655618426284662503633912900697096055035676217403409395010341311604795303143803224727221434051261031452734993373350750308043194406520642102913852391962846887027231048436534292570263728255050143570402558135827144486223024874973620975685990231269399465867346502117727653427284131020237960140048135100193065173588648633901837821832480426469017446209259871574770165022720920963958401553821172725156161014547633999076488940135276488738849708701247992900588188321011410666112235808220103293038474113649900924637379682009266008171122600340661720071097067845032205200664486225310426550006344823071065609520051661759306540770100471367548416682110004269418173287987300038788879588166442100324247292439555056002550371212984894220029922974652469056200213615135551485774001,
  928304742635228440683004675719705240406695621922649674694065299118975852203820639194465526857101806227763218242181362060823253899921643770592396476519965954905768460052182499051056191853380662795380545272387159278666905314203052967647480051374901189221853180509692358752988312604924531766315332875047607597152912062740461471913682315598404434858719052643661043806632543974356900421822792968369166404040201921525566583039864853173544390940381813631452014462603637049082844823067035736754677015081480341425160942742926603226795443144131372031489276979056004230308668915997122467402914889734975588084027247680433314623600263985853203878519302561985080602085152024930393307854607480231346167130785594502118749159893303206020250995307014442480193224395744045150701839679747611914341017466873620557175090165241260846210876401556012844545074605014568413882630928170135462123141306618501249549409443260953011422862039647037240103381886134922631400925235613573046784008174819478343120860071117857353217551800665538967657258929006349559113066936340051680350087803432300471988121883526655004271109366227449080038823693796286188500324290779577104831002550289810353443020029905841685338788400213578312520930183001,
  107898167289898970673482930236657848206611054227152473387064344856727314841870631057170739424655006131835556696074748060941457083983908870592733153961801809805777866819418205976056217625141956484070545964464009206021605316023983026699604051421823100490313750501087596830459305004827453159337885161047678116729553372630461638311411604524904438694666092899419043892978858267011320422012466898483596004044265400535466630039949699903836658050381986185146975571103640464586798830198035802505110977492680341548161983866927603229029620941129727031528644260372943140309341191389028205202916001239968280582027265453262245980090264260375893765796002566076137800091610024989135058550957060231427316505465666302119826052199283005020264700096387543510193391344895075853701841622564670483296017488423941326182500165468555246072509201558286162314450250014589909749185004870135653636086833464001251150882883468041011435376500419491640103472809016261587300925846174180382324008178582390184163510071138961343349964900666604762141270570006354340963212399580051699069904312217600472611291921238536004272802838603041030038858446861308459300324333996340441279002550204995396523580029888751875189437400213541685624850958001,
  125357331783883450674035592554168224106612773733809872505064397425015508210750631215034853176334606136490788096840845060107621392743578420583115943409502359405788533042473215913056246768442306929600546744964837490535705318072015193191855051474454354251211210501220000813785942404830712330754909630047756577324785887380461822946419722625404442939533007037627043988271677662478920422221227716705723604048725704209161787039104258085812853870372174567869769496603644183336527086405035873899856106880630341681361300776721503231442506135230623031571045661587385540301006332575023794502817191956519266595027284441291406175800264552877414077204602570423363616379333024105138666090079690221513082688462779202120961143290847309020279106601945629950193566369330167768901843653868725607630017510895113979121560165704924050656414801560643878350627812014612143707556934230135851192463348655001252798454867153056011448216625134090260103565847678891104500926469267254879995008182412248049701830071160383241617891100667683711869620598006359168839314230790051717918919529599200473237049995693629004274498554045030310038893138322917297200324376943623222090002550116803127969550029871705215402880300213505253341065815001,
  145578955805646220674673973175459226706614754581117379203064457819642195877070631395912643236647006141810284228173177060122978431719064210583550998331371570005710062293120638619055279712563829303530547624878720818665005320374682667731912051533469824467768010501368065320677500204834347167689456886047843845763363959320462027754742089496004447635506560645335043109340728510727910412450930792270731104053620228646011858039114422938444050210372380177726420360203648231223337777452035951404248793201360341825569797921844403234047786262239764031616704728711685950301083884761544271402818467260763245602027304723482216525920264864474120810423802575041926955584169024111734587103647870221603712579890528902122157379216326555020294248343738920400193749831814722867401845777383562749391017534323280116131050165950697729859617301563088827717993506014635138467424134570136054961161907940801254493283573343826011461389675656155540103661043308917955600927105101088266613008186309972475134960071182126493791259400668775920128030222006364042958315964960051736897292465335900473865387499547877004276196476292341240038927767727329049100324419622322481731002550025268263512270029854701696715996400213469014162459375001,
  168990253201208390675411061583836619806617035560458354647064527178055811820160631603077757839806906147886489612091513060140472871424116570584045271778633383105711432153113930187055316939949418403320548616522177645849705322962761080612244051599621820179965440501533588558825715004838399676152660860047940880505196497850462254871283811188304452828980978361927043120936868396143610412703605499409642704058989766291025433039125544326598086440372604531543309922703652636260925588435035103552040454544960331981660097133604803236860150616319774031665860716896441580301167152321466704702819832875386851570027326383657320914760265196347870530391702579947842963834927024118722090781970250221699465432534131702123417844956169276020310160326414333590193942110141051243901847996976548808388017558745871323513960166206217601350977701565623930401616030014658917353316349000136265115157840383701256236551818029414011474903046974752160103758437724470667900927753886531036042008190276492368530070071204194565153668400669881490375908537006368963536281177080051756005177682362600474496295753229613004277896569194023860038962334627248057900324462033338508098002549930425222902100029837741307276912100213432966596807178001,
  196082984810228580676261769516011030106619661083724038405064606798999542597160631840257983662310606154824389333336683060160394707764416980584606617487403208105712983729448721125055358992600949350490549733694907970005405325870639096261983051673748702557127100501718569014122149404842916414632550556047104874101715409650452506649564431474304458570963138052738043133723369158440000412981470940858179504064878802781896375039137709016256815440372849274542952396803657428752105111942035112678999938830800332150571024180211003239895360144291252031718769640640135830301256537167156756802821294890779312185027349510783155908450265549749637749446602585158017311766741024126123097005254010221800613426738807502124745770486731589020326879099713561250194143597697172354801850316663650050288017584201650499360890166471836146350799401568252193529234250014683504318876020070136481831593170171401258029467475609480011488764269058021060103858073382403923600928415837010319659008194312745033339990071226590940433059400671000526241470797006373930788382331960051775242725303037200475129766005929373004279598796710693120038996838581822361200324504177574721203002549832308132026380029820824032700353800213397109166602048001,
  227422981649561580677243208623036650206622681977830124522064698164815638859790632111696651451226706162743166297362296060183072269301842560585243903411628978305714740495949417957055406479225311764280541099185326506391005229136730094759164051756784431099672020501925227067513990104847948971833163717047116859807113647080452785683355235345904464917515396812849043147818376055552780413286953038334031004071335838725001152039151011349295146030373116190775243153303662641468072085629035122579725207531160332333312406094563503243170321976684739031775705390598040860301352468112114049502822859787400874003027374199267965941400265926003319483908902590690292639779521024133960677743388780221907442270012536702126144537087005251020344442821217407500194354704055059773301852740614606695956017610730754345949140166747917333372448901570976713642454376014708923961389738970136705291860337872101259873263905547470011502981008724501150103959993385031360300929091168547720941008198419676190652680071249319123730878500672133131516848947006378944928889749890051794610081015712100475765789436586491004281303122915939040039031279156599363400324546055937553577002549730950825017550029803949856121900500213361440408882719001,
  263661039441916700678375007258324781006626156388749917503064802966755723302780632422222129454544906171778071707426832060208877150642532660585967139172171011605716728877397143089055460083213092080580541240830341667717505232803929341336964051849769135970917080502156028870727123404853554492907629759047130174505676254260453094830384007198404471930239414643255043163351359044925390413622703104135812804078413738408378479039165553879224064290373407214360574957003668309841090723191035133317212092665410332530970199730202703246703168887128378031836960920983090840301455402579926069902824534459434856287027400549276053588400266326509736011314202596563497263425535024142259113626625220222020251822315979202127617683897123964020362891321411402330194575855578920034501855273158268451780017638374737057167600167034836950093483501573800679018029368014735201536594650030136935681687234760501261769200384260589011517561071530455390104064241486886448600929780099777112893008202598240000972390071272382638449743400673279410153195389006384006171160687480051814107386081644400476404357154872659004283009511997708290039065655923481505400324587669336332676002549626386846358980029787118758251384100213325958875064697001,
  305545377127129320679679671768724411806630150809775498751064923133691693456380632777326441652034606182082535449854391060238229763602519600586787619079467752805718978610299342001055520571544044177160541400241636254985005236920121513245768051953860823227967300502413712709136881104859796258941293533047144961040517129390453437238297709159904479676804631127985043180464159830991080413991618017157861504086170107614561491039181448058119544540373724441605230850703674472171566713635035144959373000153450332744711973276587203250513343988980063031902849511776910460301565828415928131902826326239792526709027428667059092558420266752750837255542702510279749624089196023151043953095668570222139356748047076702129168914737776777020382266171149925130194807496054111842601857918788095360766017667176615229780430167332982943526476201576727372040105460014762362973763713040137173191223564025701263718562542277803011532512403673194870104170862101511066700930482851962396298008206849399085528880071295785027219620800674439466255780907006389114727628535920051833734777342247100477045460202172875004284717928259658510039099968460681949100324629018683165076002549518649452977810029770330717425253200213290663130773328001,
  353935878376384720671118299838444786706534741250643020669064106086467223827940623183254177131293906193830546324405152060271605581368910910587718082578895965805721523146520579229055588804723806870940541579586720606805105241538743957811372051107034833046270310492701318102352196204866744324891071256047161377122926614090453816373090438354004488231525363811658043199312132161139180414396862136455359504094667702862369120039198814978683862080374070144053749732103681169850530734197035157579404027221230332975792763815062803254621690996398369031973706110206439310301684265807386603202828242926543475822027458665305370258020267206294124645657102510941324490876616023160342074239576930222265087195763443602130802105199951955020402610751598322020195050087337327573501860682167828452615017697180914027901550167642755768662396701579760171624328546014790434891073743450137418015128542369401265722662806696640011547843093910397970104279900308271296300931199649015216767008211174124547109260071319529851822514300675613404079085983006394270809792133260051853492387226636200477689089552562059004286428336122480230039134216352680213700324670104892822137002549407771616337790029753585709658049700213255551755679068001,
  409820365033433330671291454261726248006540014566328030069064121866582667533910623647103001985008106110721933568857649059309542159772548430588772894181098670705724400104719029120055665747867740860940541781290133271556905246719411610552974051120066566215010710493022217917464234304874476221678430269047179596829536115590454236050222356806804497675990836161025043220065383357518370414841891096087324804010397487458522874038217786175676621240374446782547537844203688447598626824246035171256178248356370333225561335427045503259050550396361049031104988875619156280291811269318332005402830292810847819239027490663507867796250267688797298731408202511643284499667475023170181749434029480222397789506722832302132521310014742080020423970326734860860195304110028675710901863568137334779005017728433714630659470167964568745762568401582902555694720649014819444611260223300137670352659956047101267782840848971764011563561375495438780104391401859200222200931930717512639886008215573395990416330071343620693115701500676801328021887619006399474628205195480051873380343759537400478335236113779661004288140700125197320039168399190177933100324710928882627985002549293786024520680029736883708692961600213220623343334853001,
  474333185288598980671490815399576721406546069966761926311064139939218152662830624176937247665877606112247240214451475059352647029707671520589968245176552412805727651775086559260055752483060379291860542008063042899381405252528610112644451051134640784692852250493380153796584078504883077728669209851047199812245165887750454700468675179326304410809975280996836042242910125728924500415330477636362983304011416604694509611038238504491263968560374857022363883317003696353722773915303035186074666946040750333495466863878680003263823861898510370031113178009673200440291947430045492760602832484706470370812027524788352127978000268202013143291140302512387960343592613023180592712896807610222537826953359636702134330770713250758020446392118496707040195570064166318856501866581718631517357017760982702993561080168298848426477430601586158103714238870014849420177562846290137930407764584850001269900464038064211011579675628128698130104505413185867152500932676286714781239008220048201541943910071368061150953490300678003342622341111006404726392465862420051893398770569481300478983890728200122004289854984926433920039202516570054485400324751491572348867002549176725084296880029720224686051474900213185876501015642001,
  548776437767034970671720258500512148906553020731475334977064160629502683301790624781916231887824306113984291943414343059401606565789547300581132237969707014405631325683503746462055850223132939676480542262936158532147805259040464338210409051150934847321285080493779275229465948504892643723357935231047222235265038002070455214248211383734704411960107589408669042268050147215805940415866739638882013004012532223718654283038261125009167490420375303749514744119003610494039174753821034202126390677008420333787066075508332503268967273551223001031121978899447865110292093377902121235002834827980960931508027561174124906548360268747794657141545202513177809398202972023191606231281809730222685580508855023902136234923586967656020469925384656595920195848469944339603201869728122093941288017794877219954728470168646034968973905401589530499269950060014880390369965855700138198389170008092301272076927898983523011596194379924873760104621981406273019100933436588582391053008224599537869371990071392854844107537500679219552553057676006410026311206363750051913547786897316200479635044173799777004291571155305656550039236568095322788400324791793884084222002549056620923200830029703608611082115100213151309849559992001,
  634644196161987050671984218427129793506560996156276357890064184307554960328630625472439172193814706115961757477635498059457195948657972150581285584797963065905635475221900934546055960327016765484620542549296306791509805266337590279723675051169145907508190810494224182633904120504810327911571146707046247099571275030820455782470127707039604413228775603072706042295708411385783970416455170545949545504013753161765598236038285816062850463930375790088290239541503611426393201244768034219509902186207500334102030869637128703274508257934984567031131435223602553410292249784036860682602837332588589015415027599963144648393650269328100445348919802514015422177585266023203255177437498040222841449648998424902138238407959306180020494621499519340220196139868454523346701873012752852157257017830168312717715600169006582522255399901593023532713757219014912384721737220100138474510477806329301274313656576752707011613126309396266440104741154331771432100934211857794390676008229228410200476600071418005410185718700680450062616178282006415374592082798940051933827507605044100480288687165121046004293289176164389980039270553375085043700324831836742159746002548933505391580870029687035451008374500213116922023213740001,
  733650148220721340672287768535368122206570143762564055089064211394554206058660626260308780781180806118212089054025597059520290352053153720581459179001305598205640160352369521504055108431684760358700532870927072094603105274512039050562907051189493055741361240494719974841452003104811509987532145760046274662799951491820456410721818862714904414627801312483531042326128797721441360417100672359134375104015089012384742922038312760323360178200376319420137707708103612438514522599832034238331303309526960334442156455615898503280476235868099327031141593634576521100292417363395176828802840009105125712695027641306214879070880269945000382053766902514903529097327294023215574107460457070223005853187580108902140346074779341497020520534037529918230196444822452765249601876441217381623144017866908787743287800169380959619861934501596641103859632144014945433536270748790138758990258172774801276612103305826160011630480247452049890104862980474015106100935002331765359868008233935832341553420071443516505549581900681694977738444916006420771441765038760051954238043184951800480944810354232287004295009012527404360039304472024488525200324871621073021863002548807410064657550029670505170975717000213082711669475675001,
  847759118529661220672636710400353978206580631803807783893064242369609366279430627158915884921143106120772008846739404059591877501064887560581655625310909294205645448393401666793055122389701444189550533232053937476758205283666342654498802051212219686790258880495272301424102159404812823416027203853046305208916428454880457105145494912969304416170146428390314042359577994030738560417808591426990084504016550211208964344038342155972852407520376895403973515852003613536964892681808034258704798142984270334809370037517191103286902708085006208031152503951147235160292596877431270715202842868764569960583027685363101652575260261060068155765140602415845007557844890023228599341179647430223179230146597352002142562995549133945020547718859887475510196763917150826248501880019330292571822017905153265083094990169769649583140328001510038722473831357013979567904235255450139052052145948218201278973750884990139011648265179413492150104987509051927099600935808250662972674008238722826695351940071469391805230359600682954402966268280006426217065926741590051974779499769037200481603404331684044004296730629543876440039338323664681437400324911147805134034002548678366244564410029654017734097798700213048677448945223001,
  979223007473866910673037675843081685206592652108144642492064277777528954982180628183447703500144706123683056270825584059673071764957846820581877854734025250605651414897559998729055138097536741107440533637394409248668805293914672150183386051237596114403627720495887420339179768704814282355745391361046339050818291890370457872491425531390604417870018467798746042396347553768306840418584757248355676704018148107076127084038374217970259741840377521998031555324503614728824202407459034280753284901005980335205740081486631003293821395374113860031164219362811941180292789136978802038602845923497921282920027732303036249181870261129745452362486002416842889362130565023242369046212045110223362040662601294302144894471596385474020576234204262311660197097761034181977701883753121323582318017944958234188880400161017315093427777301410426602241044753013101481972103494360129353924938093529401281400112157776208011666490247045140780105114789998696602300936629857425380649008243590424278518280071495635002843590000684228443460794006006431711669235489750051995451979138742800482264459627462026004298453992488524480039372107922768810300324950417868874645002548546404962381860029637573101501816000213014818035172115001,
  113062174989343800663498242902161974706510642330101991168063318237606557484660629351122730360638106126992203580656539059765129966894220430582129164323154991405658144630900916495055155768682219182940534092213658969956405210538411991287518050265922458548985110496572261415148063904815902444495433332046376533186942666260458720176116676550604419742986361573731042436756132087971280419435524535271079404019895038921181708038409179416031022120378203483359541625903616021729680969903034304608989040058940335633486202887248503210126838769013620030176796646678447810292995005289184365502849185974106059011027782305244372197360261203775984890077002417900368482550048023256923325735604990223554766930557112602147346043704544121020606140777715664200197446986706726936901887648842544653820017986382111231432660161059197781929497101410828174183915446013105122170458519520129664842692613656201283892730498416534011685164750601941510105244873968798755100937467397778541272008248539664738547220071522249810502329800685517204492967120006437255455343043000052016255578734974600482927966711935947004300179066762717820039405824431768440600324989432196436488002548411556980166330029621171232373083900212981132114507965001,
  130490997737167190664027067609045238106512219445738589599063364453551304376890621068145553314652006030752548054075086059869469113919682960582413261658676032905665732665605947283055175641962368265780534602386271533354505211821611887475223050297531832690649780497334496250646994404817700948813066223046418035610762118180459656345860167606804421806106406531695042481151915558865070411036781879847538803921804418887838434038447293023366696460378944489081902250303617423917932975744034330414140386747440336094989712611486903210928230278551435030190296397588604780293215401246666972602852669643169614369027835559503149899480261282417500219657002419020809191900603023272304310130927600223757914186637282302149923502112851491020637501852924907510197812251763115615001891712975775257144017102948529796416750151102666044119775901411243874882301922013108880741340796220129985044828947025601286453180303369649011704298150892278040105377812345038103300938321120253490413008253571596370235060071549239958728983900686820791438595306006442848626875712320052037190391668415800483593915996804386004301905817895559020039439472830566878300325028191721728089002548273852792965920029604812083998791300212947618385959808001,
  150547015894141630664634033666456213206514024923925759362063417224708654068320621219655517661560906035024090031700880059987686273981587510582734314587711953505674285598526559686055197984455960984210535174464749015295205213256801291914300050332793861285156470498182615153253123804819696928204023609046463976004814071620451068994613452246804324078059453283852042529915261675242440411138918573879309903923890822142246111038488832703906551930379750019556200257703618944270007212857034358321697182115920336592804864304427803211790445493671839030204783272237338400293451302769893409902856388781851897522027892266727308847010261365942157544930502420207754574555434023288556252648642820223972011731416433102152632896899221810020670383367819754470198194239689542234201895952240222961947017107433024216689780151147774550348984101411674153299051409013112761126505104100121031477622983454601189083067488446440011723900071356924710105513657245615274100939191276203556501008258687276131639200071576609196365753200688139309773411540006448491385424851190052058256506730122200484262297836036203004303634211544942220039473052763875515800325066697380276184002548133322630831100029588495611810966800212914275561045493001,
  173617309760626010665330422401627765106516091058148255664063477458734778668250621392146142670226406039874607171517829059112158085276520640573097006822724294405683922909731165972055223094744556243860535815755486895962105214861479402360268050372118560607696190499126011803559877904821911415405830579046514814354255248060451183079737641539204326579300294913646042583461565579821830411250784474955398203926170083906915535038534095276394111730371062548355873851303520592359705613331034388496120136743710337129670846743961003212717903437408855030220326248091476910293703750410124522402860358541670216445027952639585947033240261454637286406066502421464935434147738023305725629265304370224197613994985988202155480548759235764020704854028737911890198593660793780336001810037360034835514016112098149970596420151194579666425158601412119471085687393013116766855483547170121065428734468200201191784029991563887011743980300163877960105652461531216423800940078119821515297008263887769659536620071604361290483717000689472865068136783006454183931537465760052079454008402393500484933102526807381004305364213498584680039506563882186713400325104950109130272002547989996460815640029572221769428693200212881102363650959001,
  200144677592511570666129105672049371206518454599651043993063546185907963106950621588452339138140406045380636494223954059127317955204875450573506600070570161705694778476672394383055251306523689746330536534403012876593605216655102330383954050415960619233740940491017507639467110404724367614177718039046571056811025673270451308967768648746404329332220301267332042642244372809194750411373274685864654303928659404271480666038583402307448582810371157672564425627903522378505354632268034421114199785031630337708524568269085503213715329805854256030236998897956116310293973851156836073102864594999638488945027101690315140049330251548806182036576302422796279614904788023323861242896628680224435301645558690102158473060194951406020740985417211784930199011253165324487901810498427396209652016116950579824762590151243139500099362701412580302894445620013120901547493540970121100383429443014601194557738281155208011764548792319059680105794278812125049200940981908156683142008269174151284381770071632500026290559300690821562983542441006459926464706943280052100782976869926700485606320310434194004307095789675034760039540005841730004100325142950846768340002547843903988967100029555990508699542500212848097529889319001,
  230635467466452440667044764746051809306521157357784902053063624575282952486160621811782581256208006051628577148664206059144476432340289650573969003437307431605610700226128292498054282992616039660750537339483359463096105218659295481779529050464824118010975330491134129806754400804727091116265175262046633260175994177270451447841308126050304332361324429642079042706758758364428090411507363746398028003931377461377949316038637102094222807730371261005983449492003524313825275758652034456365940632265870338332514282940082903214787777248495671030254879681081937590294262782461947455202869115211758694721027108529558176460900251648768939742841802424205921754417993023343014332143073610224685682743185929702161617327127651402020778852100500857260199447783666496960601810979174056008110016121997210266226360151293513948649669901413057136696762924013125168913379477390121136367897794636601197405895870264061011785615671792865860105939163455355676300941902901131947550008274547504044763020071661029207036960100692185509265514754006465719183363903150052122243488031245500486281941373302334004308828906124653530039573378304428378800325180700533004318002547695074662310210029539801779740304800212815259807961799001,
  265668483605174480668094138568346317706524246879188424933063713952919398744410622065766884646671806058715928334338972059163890366674217740574490850936603589605612076218917572200054318569429981112110538241107530450138105220898088286081578050519267733195477910491263737753932711004730110139334890413046702036801558287390451600997595485600504335693423835462026042777544994018573410411654112424315555603934344533622051470038695571799417171270371373230580091673303526410297207275592034494455505805441960339005014111065680703215940646923049390030274052251754919600294571796494511225202873937269426744005027115806883870202690251754863330099185102425698213486339150023363238684749191910224949393940265667602164920550949083985020818531745987609630199904048955403729901811480374990280793016127245168215763980151345764747585248901413550474108324381013129572757588506510121173408917995210901110033023983635048010807191233662526090106087170591809051600942841361560732700008280008919701353050071689952653921632400693564809740119168006471562284867161130052143835613510383900486959955847791212004310563529030573370039606680937854656200325218200108897002002547543537670820290029523655530976915500212782587958020417001,
  305905110955617560669296305256885784306527777215895167922063815822443776788250622354510786558320906066752678496411763059185848766285515010575079588021051198505613624624218729977054358501911488122290539250536119193314005223398173553397242050579910470622004030491407735090546420804733455787838086974046778059952760422690451769859247040891004339357845406642745042855192527503324870411814675064713520803937582631559330718038759219749857348000371495082771804295903528680821945731172034535602226148941470339729639509847472503217179711400662740030294605786360271410294902224638292916602879080358901782183027123548944224255690251867445716816474802427277734112218925023384590755964786100225227101730574886002168390251026199308020860105239558066200191038087654164587501712002833084518661016132701817918017370151399955520492353201414060830720775610013134116980180874380121211533868050010901110333254134683521010829285946270268150106238356123448307600943797555163898950008285559498750354780071719274205995062000694959570308667608006477455965494819300052165559420668853300487640353813195164004312299624709631680039639913415187943000325255450516660453002547389321949387500029507551709183750800212750080752032461001,
  352100820573852510661067300116801530506431809793712026606063931888235710455220622682656059149357606075862863776644491059210676717301951660575743568156939711105615366478778057666054403309042347484970531038030624394243705126189193961494316050647437983363566820491567672568748283604737162338936654511046862069668302987260451955985966182874904343386659653321399042940344299078732420411990307541882246803941115640254961813038828487910631445460371627357597578201003531139291492937196034580041677949847220331051026375318228603118511139001626470030316635329965387900295255482245299388602884564823995070084027131783926435707530251986892019220561302428949301762459106023407129792002744740225519503748618814602172034277674842345020903656808091436240191087912587571492601712547380042314775016138374768012389720151456151830044344801414588736440208179013138805578875261260121250770736601567601110641460619041101010851910453397247160106392776730495797200944771750586574490008291200350436440300071748997720061924800696369896942787877006483400420435471730052187414972617855700488323125296639290004314037159613280490039673075415170170500325292452699575928002547232456179771800029491490259522120100212717736973646665001,
  405118239516779410661224898241841128406436414393624817665063106408156495606230613055448973373524006086186315781993358059238739768761227490576492160575093771405617325317133851907054453569943160744450531164437208343720305129304058422242036050722609530344759300491745263029769944204741267555818162593046954879166444184810452161087309224773004347814928501049303042103370142299176020402182375861081477603944969472870116361038903854547622297730371770913195178304603533800662012724861034628026833735512600331135103548313490403119941519646224001030340242163522173590295633073658971421602890412232141999246027140541636316708190252113598721357799602430717985067127510023430917958795472780225827330121148358802175860825618330100020949274146186674940191139968947302283101713114877320355398016144271878788744540151514421230198154101415134735832526814013143642651129561650121291148134191576501110957827531414346010875075576453196460106550489878649854400945764219414916660008296932592765176880071779127070582193300697795895679494607006489395843779526720052209402328230751500489008260273991413004315776100328472040039706166622062738600325329207601905171002547072968792547270029475471125578170700212685555418061134001,
  465941992767141290661405243437214752106441670260567409854063121459004476686880613478817027541709806097880621044256315059270448835976777820577335870454386764805619527460015511856054509930645677773280531305826042544718505132779291346068306050806265638844728440491942397820026992104745813030934140231046105738184465718110442387036598650101204352680974661062880042113602826348228180402392365461239001603949172236335299892038985837092167236830371926675605832954703536681031921234799034679829290859033980331225639739926082803121477892310073152030365534192847496250296036597521446085902896645444028569877027149853585973480480252247983929829526102432589115358197028023456020476259155250226151344872759519202179878447947331445020997048547257377730191194349407354144501713706217090405852016150401269632025520151574833319600038001415699388475809617013148632396257563450121332695304682068201111282542536639406010898792316681811760106711553826321465300946775236192803244008302757352514949470071809666149570988900699237672616265455006495442428510657600052231521542155803600489695748670770006004317516413578522540039739186725603268800325365716168805306002546910887969038130029459494249400009200212653534891892923001,
  535695551555718040661611543529759167806447667355661676422063138589081148248290613959455162271236506011112331711450858058306265682018283440578286472931700423005622002335099225692054573111605682120920531463924278305230905136655418118198989050899336539799845970492161164816584178004750844561922244778046117055892616109760442635886083170450004358026674386512355042124815793730881520402621891273414197103953754410022657637038107499522253350370362095643929261855303539797725455243027034735740582876924480331323110615582433803123127774178284640030392626360601711410296467752380014455602810328868695174085026159753085946491100252390488482544410102434568299425600883023482505758282556580226492347387550726802184096070597951000020104707503912987370181251150183804847501714322323228968068016156771326659973360151637459796223641701416283269319771589013153779117581968260121375442136837167701111615796924558368010923071857381779920106876027631889926400947805078438449475008308675765248363740071840618866497128300610069533390611925005501540366497361710052253772664829136100490385580363046964004319258066223950580039772135420962432800325401979346245010002546746241643248500029443559571534204700212621674213049305001,
  615660352663759230661847448118093805606454507770019391089063158078788948584590614504922603498175606012611435309330558058346709043574463220579357162483789829705624782833644859522054643916034994104130531640652578941426905140977390423449345050100285145133828280482403868214536977604756412563218670058046129548781101024850442909883452289426904363897775569307583042137099827725358630402872708593981303603958749038395102090038117193417791717140362278895853452159403543169382085023924034796073579028955630331428025354104115203124899191597999606030421641082549563450296928342608656339702811036763210152928026170275342023920750252541577110668925002436661432850368686023510445558664894850226851173928880451302188523007365441465020109945252428319560181310471158200277301714964152335302986016163390710558207590151702374513263895301416886969052445339013159087224624215380121419419176066938401111957785665482894010947925566143464750107043971160977367500948854026660951744008314688975323142020071871989148180414000610216898575269921005507689848484646610052276155742487961600491077745178346273004321001025263293030039805012408700899600325437998080922113002546579057503771770029427667031061633100212589972210600667001,
  707297487304067490662117107956127585706462307320418812668063180245425573589030615123751608879964706014307884557272833058392361474844992910571056271939420909605527905706911101476054723239139236770470531838146175286935805145795055409754485050111794879309643870482673050242831470304762572516633914311046143335119438509350443211489822022018504370344243289266522042150553829373851850403146724835894178903964191938680486509038127730832176012420362477593585213012803546816052161566939034861163977453150350331540928901677805503126800712934370586030452708709455152520297420284661322535302811790947596154557026181457556949908250252701739656150070802438874713938998645023539915123235276920227228699219333391502193168975471477229020115428392487319940181372416004809468401715632694778524010016170268364617003620151769653536310470901417511094474191972013164561235331562450121464657636334665501112308707466247136010973364997101188740107215445093741483700949922364376754490008320798135902500660071903780938687688200610365873440536032005513891064085833320052298670817184044200491772232896538395004322745257833900520039837817394726453300325473773320182740002546409362995704940029411816565632653800212558427724655027001,
  812272296455676690662425242123766104006471197349655869643063205447917957364270615825569541778161206016227016449374071058443876991285448970571191969520380352905531412006656506250054812078356893850220532058778144181411205151163673067258224050124588742163391750482971514990244625504769385464454632104046158544702009588830443543399318087921804377420635096407869042165285517455484720403446012226117467503970121924694276233038139182497233835360362692990209262741403550759299212698855034931371898110771340331662404370168506503128841483440845392030485968016033487250297945613674462566402812594302603386342026193339037258816560252871492347282628102441214658284153490023570993348394511230227625838083073399802198044111703468012020121167633268706610181437092321854360101716328975774483285016177413522974180520151839375201824959401418156268879158002013170205778341886500121511189412229040601112668764826852745010999401893201074850107390510932186115700951010378126039455008327004408965014580071935998199227627100610516468615426214005520144201774477000052321317926797396700492469033250729626004324490731212706940039870550090251098800325509306011941554002546237185322538610029396008111501653900212527039606234147001]

/-- Rows from 400 on. -/
def besselRows4 : List Nat := [
  932482252583835170662777213980448494106481326757153376803063234092148214003130616621235862760928406018397338733982973058501989604087311800571344661924806958005535347574486591392054911544704954535030532305185137458861305157144486622602264050138805898573556340483302354539784223404776918548948556799046175319934311945040443908560393335633104385186508489361958042181412186579227780403772821522367911003976581048014529407038151624851980932420362926436505434402803555022309328875948034100708358175742130321793075588552310303131031262260703073030521566718455328930298506490437159798602813449879110372215026205961305476892420253051379134894536302443688113977724010023603762946328599280228043547152831669202110315898914493235019127174116417825250181504611766823940601717054056493187149016184835719068585940151911620176946192601418823132444293958013176025595286665250121559047091202615401113038164097708247010102604818848441510097569231007489092100952118357489035791008333308965313962680071968644908044322200610668694732546653005526449448876409420052344097105050206600493168135928146836004326237412816979220039903210211748399200325544597104603672002546062551448048690029380241603560975100212495806717151219001,
  107008855609610740653179117021181615806492864288525995905063266636943634525280617522995813067406806020850916443752028058567522846306735640571516422861091276405539763585305723965054102287534717270440522580295811509204305163805351210380903050154600150962870350483668977627757618104785245602490478698046193817018127702450444310199027422493904393706863248989773042199061528036511220404129596827728995003983614857798871554038165140485022195690363179388255532773303559630008107206208034108871320167849000321933609816750190603133380461683201057030559662021979959980299105208748141400402814360907626958806026219368217943264870253241973091829609502446302277503301813023638310617152078740228482826643852470702110852463451652267019133459432073602520181575090195985148201717809035197492961016192544794308752680151986471520648580901419512342626053055013182025543132609430121608263965978005201113417115537465330010105331601038652560097751668487347035800953246595102249371008339712984586158540072001725060309641000610822562427604239005532806991561900870052367008381521007600493869530571018332004327985270205045050039935797480910921900325579647546987678002545885488098170960029364516975374216600212464727929890099001,
  122755192931615130653637871893823977506410600111628183840062303600811378721030618544652769786264706023623804296219336058641400402662029940571709572407415623705544717150681719058054114744751275991790522887362232201298605171221426589069204050172141432221720330484075141063321452804794447792897121017046214207244296332360444751843968934881104310305262149736462041218372518408734150404518991587504195003991272680624836535038179818609839399360363453414073444013903564609185651705274034117670479531087930322084720631676423703135900188784424909030600421200372091710299744203179875455802815330808297453976026233606088513184670253443877878515835702449064710336125766023674727228248395520228944722197193082402111415254614786216019140035635434775130181648647808205440601718595048413853878016200550906961368880152064014746278561601420224574564887707013188210596562409080121658874047123175501113805833371454152010108121768205102880097937887383336392100954395386674608885008346217655260257230072035242668014389200610978082338917518005539217014837937220052390051781659058600494573206777448689004329734271076996670039968311624607730700325614458288249951002545706021762867800029348834159208921400212433802127486081001,
  140767315192684570654161335992281948406412095374773628151062345569508032785820619701761480903854706026756530260488829058724657967312675910571926705491796679205550271988535850678054128679390628400930523229994557034353405179475940221000880050191617446141487120484524984165595617304710461432895988657045236678402519529090445237354193252833404311330114857944179041239496381306485360404943885858887293903999607921832887335038195755575305444570363750203794297241303569988630159000941034127153432329977500322247170995876544303138602289590017696030644022208844805950291042605727095785302716363201428585347026248723818417841860253657729277521058602451983356279633802023713108001083937420229430326794852512002112005471260095447019146915263881638270181725409293204759601719413272135895075016208864541264293700152144337885494715201420960521497664756013194585850395071870121710912075797295601114204535850720330010110976572465953650098127952558290466300955565031003528681008352824174664547700072069201759858267300611135265106928473005545679702540619770052413227326798946500495279154102290034004331484383275376700031000075237484211900225649030277810580002545524178697984820029333193086068709800212403028203408169001,
  161363895055587660654758427214995344606413796730056695043062393204544830392980611101184464239195205930294636179866849058818456467534903920572170723573178252805556499166236782363054144261976376837130523612199326044607205188661027639351145050213235469462729620485023066498545945904711584323159935698045261436318420683290445770948763615586904312453681810915236041262597628026805920405407404950678462903910867838995598601037213055413923852430364071577460811597503575799270651762893034137371186399019210322421776519721205403141499395904409689030690654332360179340291115351216902610402717461918568103453026264773032566979800253884196800115579702455066559568851144023753552705781999340229940782749283206202112624363196653529019154111354669983600181805503984357352701720264923061620685016217496516768934120152227531553637437501421720895178120429013201156522046324490121764413536668554601114613445311665720010113897285977667860098321929733691823200956755829990885417008359533748984220240072103606381138673500611294121373714955005552195237327684040052436535034175423600495987362058007916004333235574785839020031003311946870935800225683364465280207002545339984927097410029317593685724776000212372405061442839001,
  184907393235689850655439263673814411106415731919130342977062447252741179589370611249463556191889305934289281999377132058924096806255477430572444869873121817005563477924909709722054161682172560154130524038421725472594705198878657684112473050237224330946841230485574409208965924504712824217653683104045288706528941924320446357239298105848304313685162478454902041287855183354172900405912939537391131003911854664593117678037231830430461466740364419494947440759403582074329457142110034148378395182926340322609408928745162103144604974958989380030740518871213260790291192947574751749402718631014161037435026281808222592846470254123985367982752702458323083771979724023796165863752892450221047728376992094502013273233185535002019161637463214329150181889066016166639201721151259865065863016226457997916866070152313689016554327301422506426305477047013207927954029554670121819414671005331101115032788236295221010116885201171042820098519885497079601900957968088658907765008366347593268115100072138460593638326600611454661782503893005558763800671133790052459974916938440300496697820115542463004334987813737792340031006541264835472300225717461800388416002545153466243347500029302035886746830300212341931615579273001,
  211809933909310770656215321357568217206417932328747959433062508556952336578220611417234996767243005938797920877786345058104303629304571010562752768544695931905571296593578337301054181150871400497660524513592223754449805111024165090876270049263836584299961130486184540300188490504714192941488911019045318736108091817460447001265261728264104315034584885941167041315463603202280780406464167359710891903912928037890777915037252201833822536580364796066265559571903588849485064602751034160233606865866490322810999748377524103147933382039882854030793829865923784250291275703222072115202719874777811849340026299886896946902250254377837073345647502461762131522735555023841056958686758000221104107710945331902013953439010699204019169507681978004620181976234486539324301722073584503226673016235760503855688680152402906258907965801423317864961346002013214905616497775360121875952489942167401115462795313072050010119941630988768120098721887309471298200959202115165977598008373266931434948970072173768475511747600611616896977185372005565385572849999320052483546984168401000497410517705165075004336741068405020310031009763166093151200225751323232913147002544964648211265990029286519616533506200212311606789896039001,
  242539949548772300657099612000029008306420433458024522284062578068111770042970611606999036957609205943885053273657228058117690695157470630563098468206027453305580053602644268729054202902502161135220525043178018317169605112287480024501120049293350893324339860486859544203811308004715703477864626084045351795656061897920447708532320495807404316512877646272906041345634391299174130407065076631413213003914095281059387172037274300415204071720365203562595731011903596163046036782881034172999529740780870323027544219000591303151499916264640199030850814863563200800291363945228275310302721197747182018376026319069738374005430254646533020908385902465393365117189243023888340656226168010221163346579263239902014666395623958055019177736659988094950182067153623987707101723033243559115066016245415918499159250152495282053992905701424155981055040510013222095109827088470121934064787921894501115903701498382985010123067909124499930098928003512798322100960458220822339503008380292996279011480072209534121170561700611780837601827363005572060732943204500052507251240891608000498125444217329123004338495307206281710031012977625855928300225784949712611600002544773556168593330029271044801342158400212281429518449194001,
  277629693473350910658106883676644456106423275444100901290062656858745133264070611821568676764475005949623068992370358058132753591185528550563486490311029522005589858607183857046054227197583833487110525633239774243435105113691610387062271049326074649356110630487606116043923951504717370077859174024045388181465816362070448485054013559227904318131948028435875041378597422660436720407719991281561827903915364313021837315037298267275776476720365644428096058284903510405613668861255033186743314825996140323260105455003596703155320879686210337030911715727753065690291458020379732082602722604721553932480026339420769102742380254930895255147507902469226928010134099023938137032646661270221225581093052803702015413577366424714019186339622993741780182161972959892371801724031629621806652016255436500836776380152590918035089412401425021564777426738013229502167242145610121993790156315440101116355746078617038010126265390263454600099138303337355244400961736720105720772008387427029475349960072245761641167742800611946494300191677005578789458822564350052531087688095934000498842589003517319004340250498705892050031016184619828226300225818342189152139002544580215228079870029255611366318156100212251398745161796001,
  317683730645805030659253846961725358006426503653324699460062746138130989678040612064107793250163705956093187175144976058149696811808439930563921882879476213705510083373161498751053254325546633759570526290494182454831205115251812116106611049362346842880920510488431621023286633604719208380287360386045428217882432351930449337397020013356204319904766549640834041414602482176199730408433598170125329903916743696233062403037324254607350492010366121292538772881803511257289529389480033201536856795547900323509818862263838903159413639912102316030976789494683989610291558296306643026302724100776093358542026361007524104900290255231788776628595502473273467247290662023990571812884449490221290953412320715802016196520268906171019195332394286746660182260847505960127901725070182704361485016265834895498024820152689918768381384501425915427063437858013237132657484078410122055167997220587501116819172732858022010129535450324506290099352856909261789300963037930676855911008394670281584419950072282455162080684900612113877715250529005585571927145892840052555056322746680100499561941377082912004342006611614282870031019384124202782000225851501612047578002544384650279283320029240219235523626500212221513423714808001,
  363388530970043590651055942982152932206330169345904778224062847269303725932370612338173796079025005963386505312024229058168749160770111300564410280163312158405511311494846510590053284607849770133700527022382916013220205116984946362667475049402541213213246560489344159398864719404721235542513868133045472259871735496290441027273031921123004221845458615743714041453920927260754410409210976425113938103918242686981365818037352426529722486880366636984830550023803512176068562514970033217457114352224160323777896829296151903163796696436653304030104630927762338710281665162670753912902725691276844224914026383901232792149170255550123651170273702477544156871013020023104577661826232100211359611995392053202017016824433776160019204731416203936420182363937937015487301726150391700520237016276624143576618260152792391827466702601426838400063381831013244992587521400420122118238537441189701117294229596194401010132879486703789050099571735257937273200964362173394917501008402024012056214600072319618826393195300612282998488704292005592408313350228370052579157137802623800410028349061408611003343763614788543260031022576115656519600225884428930589509002544186885990350850029224868331965670200212191772517439366001,
  415523304731888000651204506480306274906334330422937732103062961788116660158010612647765333841167605971605169579639128058190166564469653160564957968886362561705512685360526716285053318401425660358080527837148618846951305118909643385044095049447069702294798700481035263755530861904623470383190270875045520695816143523130441129887856732009504223969403775211622041496847484181059870401005762905998639603819871289465179618037382959988635728460367194547475584665603513167032268178645033234586451238322970324065633708161348203168489750894822945030112056522250454540281779032417006645902727381896490965481026408177009533525850255886857215828686302482050722338544484023110388922427664270211431711857797408402017876156500935648019214553772331239410182471410779266934201727273795881093274016287817693720145510152898447869488384401427791337623171955013253088105304369710122183042842648217301117781169323647728010136298918519796550099795010323587081000965709772332850323008409489489233868700072357256792376398800612453867260500139005599298791645181590052603390122232272600410100722595412599003345521477232940250031025760571346423000225917125093783910002543986946809794090029209558577624062100212162174999210393001,
  474972237067633610651373501250811430106339052265754031373062109142460846285170602997375633281769505980863680153631765058214235202047451030565571961760995283605514221811503323794053356102483759194260528743918622104931805121046482665569814049496386241027324750481146684572965485804625933537965313942045573950557107812370441242438003859524204226293343195462862041543702188395690590401097951704145815603821640313916851954037416045718556404350367797252044218582003514235631351379749033253012999148772070324374411102119050603173513781456967793030119986551731979970281900343092363827202729178630925256531026433914053393492210256242996385832060702486805465993303078023116505382882070320211507414840956059902018776252200542039019224817210429926840182583438604192427101728441986430978252016299429413490616310153008200712915265601428775115773610855013261425502563303770122249622831724007301118280249154721624010139795186859969160091002275496470038900867081054792607084008417067990356733570072395373233968547200612626494668351759005606243535006392500052627755261030283100410173313660116648003347280168099420310031028937468905444200225949591050287889002543784856968251300029194289893478437000212132719851341570001,
  542738297662350330651565672582223170906344408678701463814062123812694393048840603392052118817974005991290346638411229058241274986896792630566260079058382200505515939582731864770053398150710419656810529752797149895388305123418190805658039049550990899121485570481269754298899964104628647629307272112045632488705137098800441365854950756437304228835496017198942041594832480002066720401198309599000546403823561439063749419037451889274740938570368448615713894807403515387711410333904033272831043884797760324705703477952860703178891121595639598030128453745817719110282029558235198726302731087816655628810026461195857507198420256619600066758461402491821293631171152023122942133123247600211586889890993172602019718918995266531019235540166106019860182700200228192102801729656608027763291016311473601001514780153121767417001639501429790633228862032013270011217651358700122318021291291224201118791730978573977010143369755028771390091025504296555903400868476351320286279008424760801562933590072433972340653814100612800891347260303005613242715169118700052652252535234107700410246121172435851003349039656688094300031032106786438410700225981827748347532002543580640480239990029179062199534997200212103406065481574001,
  619958823514108950651784125990482353406350482947787287471062140408823119291210603837463032092719105910302891040821391057271643437957685310567031039089464092205517859509860552528053445033904787427160521087496684887749505026049858898664066049611434432233296800481405655011545983204631637451673604105045696818240107674680441501154647814294904231615685292572023041650615466210283440401307535570834897903825647279236869024037490712139366162010369152418953438431303516629540332484497033294141436163790420325061084121885411403184645543467587336030137492857502245300282167168838802300602733116149100145964026490110428526943520257017781676416490902497111742205275725023129714962256776080211670313348039157802020706038814913079019246741787244353370182821880918159021201730919360462885879016323964996837022210153239268362955133901430838811894240475013278851838432254100122388281890427787201119315881399813198010147024108797241510091049194904375659800869895995721167598008432569217891387010072473058317339983800612977067929036238005620296502621923030052676881921940770300410319144045885585003350799912447699030031035268502517959500226013836135736972002543374321145899400029163875414852674900212074232642511659001,
  707923096822978630652032373354574840406357369029053117535062159177655193494030604339971851547439305911624035247971532057305739983216214210567894558542268435005520004758261892361053497293094643362480521212280055560637605028969181237296411049678323263192368340481555685110973729604634930173367417278045767494426420605330441649444919780930904234655474266965184041711460363640754880401426386274708205903827911456458379652037532752906807718430369912724426143758103517967837506603221033317052028582864020325442231459044755903190802346166917316030147140782017795070282313694892726735302735270701804134505026520750516592052960257438711781064648802410269100871434746022136840388751338010211757869246370450502021739570886315910019258441959229377500182948672603122641001732232000306342332016336918796259199870153360827336843014301431920597383458613013287954105213461820122460449195569281601119852971804921010010150759756654015310091073354885772738700871340325074646066008440494543283306010072512635384235136300613155035041822554005627405066600492690052701643394323856700410392381190662628003352560904976043780031038422596180477300226045617159698487002543165922552720990029148729457568893800212045198592444482001,
  808092167175373030652314384816275358906365172882174461958062180396857954298840604906720400918355805913110490755553543057344010742317816490568861463718641698905522401076325611088053555528180395407510521350998430227180605032206717383542155049752324937421474240481721270408638356204638555556533013090045845124069568299330441811933492950865204237978313822035007041777811134183570120401555680623142691703830368677862110185037578268553485331550361073389719189348503419409804965733411033341678140319800040325850935757539238903197388449118735056030157436682300639750282469687005859368202737558946626805520026553213856293151960257883620850784485902410857398032136910022144335691836888450211849749625761725702022821554661511888019270661330975300880183080774092122843301733596342615957974016350350661708996260153486571614267123301433036959545463259013297324913725358620122534568685600162701120403278429303584010154578230057814330091097991901428489800872809679749061889008448538090583166330072552707776723297500613334803309619051005634568575081564660052726536921650660700410465831513725775003354322604020436980031041569046922067300226077171766883699002542955468077269200029133624244924774800212016302934324211001,
  922121197531342100652634647146088082006374013966578339597062204378720266384680605545721634092239105914782430710977202057386953840148184770569943813820604452705525077075507838977053620404160112855180521505165265617891805035796179815572748049834174096227381790481903976240082308504642546196864695786045930370142831764820441989936699111580004241609701959776568041850149329164581560401696304718892865303833034818825080034037627535798047747560361162062629356765703420963160582624297033368143051246041510326289106239352152703110443249089664130029168422121417099930282635728115303451902739988774942548415026587603419121407430258353802139010423502411477626575091850022152218944153961400211946154854431196802023954112847269326019283421341788770860183218391298476103901735014262692250306016364276735607052560153616632046838330201434188893001001502013306971318146851570122610686767135246901120967082424972556010158481083691391680091123113707616905300874304403416425757008456701181539153100072593279745239092300613516383351807970005641787194776974800052751562469299511300410539493918875938003356084979478096200031044707834694528900226108500903295986002542742980886891310029118559693289926500211987544696127854001,
  105188464745762390642998229360824420606384026919377773772062231474361894072620606265963192901942705916662427685283078057435125308686719660561115503755435490305428064539880324770053692657993629466630521676453759169280805039774749569161728049924679015531581850482105520692074149004646937784734781822045102395681515742060432184888911224923404245577356273996219041928997157640813080401849217163478775203835927012213797738037680852558046259440361257794781832910203422636173446586498033396578527222219650326758778621479497703111196493376217085029180141202313474520282812435285332159402742568519904688155026624027677913556660258850614691411827402412131422801534755022160509045699861690212047293963972030302025139454539138510019296744249087844500183361737470598635401736487697879934367016378713653460354380153751143150481497401435377417689053275013316900534177986460122688850789992767501121544669928857739010162469895716928070091148728156960177700875824843067037210008464985146803078030072634355555141389200613699785782680881005649061091127817620052776719998777262500410613367306835700003357848001396538370031047838939901353000226139605514233760002542528483941418370029103535718186754600211958922914667834001,
  119950464499897300643410856471218068406395363436653644050062262078441617743920607077522955313353305918775731663726974057489145640444991670561251008444947139605431398768196371377053773106169358133600521866713220618479205044183422512217308049102472876183280870472327789043304129404651769389589138902045112667491377161880432398352770120586104249911400427055215041101492079580107370392015454768956525503839063744176353039037738539509645302840361361126953002081703424437701558400354033427125378447805440327262123112010474703112001817423971804029192640715272086770283000461600881164102745306979821599867026662600883824650050259375486489524311302412820501852174486022169225759119023120212153384996675140802026379878463279446019310653157001613740183511033429555366401738018649417142750016393678557280901280153890243195602572601436603579423271443013327119942160051800122769109062860456801122136332131753163010166546268032871880091174843199185043000877371349023994995008473391325929767810072675939486585965500613885021210966840005656390428298723250052802009467736945800410687450575328364003359611639973953430031050962343393734400226170486544235014002542311999994851000029088552234314320500211930436635495757001,
  136738294100596650643878992341648602206310819438209716879061296634421643079190607991697925273519605921150579387530032057549707063421282740561402559243321545205435118951789380744053862653043601944380522077987071459805105049067389131627027049113530102177808360472572849526268352304657083769612405604045123938785779505590432632030266098384104254644565726388848041110853395568111150392196138702323405403842464956940376643037800941757342741620361472639717489063303426377231988038965033459934052842928590327801452887189926203112862666005667735029205970293474371070283200498160251886202748213442697252675026703443356382255070259929917734733694102413546661261348226022178389746386366890212264655365660739702027677776329409628019325172045875439810183666507813506951801739609184333449878016409189109322636860154034074299149667901437868450458569538013337637090243690740122851510869155992001122742365347897931010170711826532212110091201466881879838000878944274957597452008481921067375925900072718035834397190500614072100239361886005663775369172247700052827430829995573300410761742619156442003361375865559559770031054078026466601300226201144937022771002542093551597039380029073609155571799000211902084912807395001,
  155823688715419140644409932759631514806312271214978773850061335640452316103910609021147963605797905923818538486092503057617581614792579190561572007335625474505439268591947862822053962300028862910780522312532629150938205054476450973419044049125747066669604980472842970527190566404662927708831211837045136303810203319460432887774744302463204259812408977498858041121050173272230810392392481094008237403846152159107872515037868430621122970280361592956256919545503428464923648564989033495165266552702500328379233076912665403113782701379552506029220182577091543610283413276171914074202751297711990532549026746681787198632770251051548427843218202314311784660207613022188022606934118420212381342228248873102029035636298310005019340325802707391530183828397329231185401741261437397815062016425263506143019350154182782518600617301439173130068001459013348459697605549230122936106483083255301123363071085194020010174968221362184140091228607351252258200880543977899633659008490575728498470580072760648907938783900614261033464060105005671216075343383040052852984035552123800410836242330279687003363140648653944000031057185970854669600226231581635451612002541873161095351440029058706395081402000211873866809348810001,
  177513993186765490645011909941563324106313913331095122200061379655948325685400601018005602322840805826814890205694022057693630098592997270561761411833794284705443895960770143621053107315571499132820512572842847596545305060465477162034174049139241911884696050473140639350807702504669352384003144496045149865413325747850433167603908066560704265453547878205083041132154475311361940392605792144087119003850148543970822430037941405548943843540361722745358394143003430711652848629139033532990673782548100328998090287578697103114765816362234419029235333386343854210283639569160521124602754570133650047876026792449557940834140251113384120438682802315117845634705211022198146917274179430212503692873011840902030456046567417292019356140252542075120183996947010898586901742977613117574394016441920492995661460154336517947909546601440518745130074399013359595657713964720123022947185885705501123998756116061903010179317127185392580091256272852887717200882170818257560964008499356675552342670072803783030983599000614451831474285898005678712707114177210052878669030605658500410910948597892586003364905959909382760031060286158728501900226261797581455242002541650850636325730029043843865210994500211845781396323680001,
  202156718753530060645694209844766735606315770157795698231061429308935524735700601148430673327918605830179054945419841057778812021465469570561973062498799631805449054609895754432053119644701504317410512861670201399989705067094904734270077049154144459200380950473468582687645104404676413763832957979045164735806467326510433473713900163924204271609915313384915041144244364336534600392837487762200928703854479116406481955037102029616296600100351862724614912091803433129061795588989033573593578297654120329660822692796396403115816148147497645029251481903990873570283880195287487160602758041624483586886026840887073183184910251178672656959183602315966911744356960022208786272169874580212631965120965008902031941699078130968019372642190848723210184172410486286168101744759987789637681016459179378560617460154495434815445742501441906450726641924013371053041644228360123112085282298270901124649732548935711010183760243442347180091284471732508289700883825159828569607008508265283687787390072847442541582496200614644504851827841005686265423488470420052904485757573595500410985860308501221003366671770130146950031063378572690595200226291793715994979002541426642167321880029029021477596203800211817827753301730001,
  230144668848776470646467303815795593206317869112260471772061485304256314186580601295168537723761805833955065257550633057874196610300227780562209504876858877705454803931941733396053133353143648028730513182052918772215805074431286860263460049170597328533517650473829788933092673804684173043266651070045181037387791074500433808494548054408504278327034010605583041157404384617576050393089097779641346503859170828948520635037110556444847141760352013663840732096203435729610231381847033617169689050844700321037041072405447903016938092911352229029268690867737641300284136019791719531002761723701923947664026892142108791910310251247596531011326402316861148707965414022219965327412638100212766427741365941802033495393348559577019389859416911040180184355050250617169201746610911605064928016477060050018964350154659691583958259001443337430751521815013382840101443936320123203574117199107401125316317900399269010188299294615401220091313212436732153100885507369813531684008517302936947107310072891631791932273500614839064170573941005693874382166739850052930434155110120400411060976345999714003368438050272790540031066463195771482100226321570979009359002541200557438151760029014239143162161600211790004968128329001,
  261921703296771770647342996283051277206320241028996612019061548432731301336090601460209953183214805838192091462150532057980975026276573360562473568098830764605461209779944328918053148591058792609600513537343786948214705082547893390056891049188757161645412900474227532520236470304692697115839761130045198903636579512050434174545865837290204285654313125484015041171726080837551870393362274774728264503864252727669776235037119770709498939300352176388715453642303438526630393974958033663927922541377210321113002839520285703018136321245642311029287026773064940290284407957556356492302765628515255525905026946370176518023320251320347331868219102317802824762707917022231709844261029630212907360882606135502035120040435534663019407820768257005880184545137948218894301748532810808221720016495582988478462350154829451052600447801444812898529988466013394965273548970660123297468092462686801125998835167965133010192936030494090710091342503513833524900887217818830835476008526471028260896840072936355148242745600615035519996048590005701539739541070520052956514158124766500411136295591746136003370204771446423340031069540011425851500226351130309364611002540972618002708090028999496772144792400211762312136835169001,
  297989218464955430648334590400034771306322920575372646215061619581385766368400601645782587856505405842945025568640504057110047390159767180552768395616898436305468345150623571938053165524504214927090513931241774618140305091525368562242182049208795958697121130474665400442073716304610205908729974306044218480083337085690434574695912720733504293645368441718181041187308556857611350393658803555431432603869756108554497574037129725799975386030352351784671443413303441534385508486153033714091254652545340321194305529638422903019415794464679150029306560087016376400284696975807625351402769768878368799782026100373490550170690241397126170104501302318794315203216043022244046735601297540213055056518693537202036818667029819703019426556156157464750184742954662194337701750528189911731430016514769284757136480155004880461048490701446334097449285587013407437182250617930123393822684015394301126697612903496635010197672226441854810091372353614502978100888956880930100233008535770959443740040072981616990602875300615233882884950878005709261650690222850052982725697801102300411211816924637768003371971904912966370031072609003528685200226380472644806113002540742845220574670028984794274111770900211734748363552064001,
  338913430111253810649457073766246638706325946716416801676061699744861459104940601854378497048680605848275129795842248057123417033815672210553097479180023360605476290937854062217053184337068736934540514367826738382688305010145245114365172048230902538199229640475147321153528141304611233883398506504044239925361919589750435012020115446160804210235836799513175040204259077411689820393980611346207063703875714685082744753037140479094425881470352540801040122530903444768132023978496033767897624869264100321281308929495552703020781781831618805029327365473500563350285004096952214901602774158304112736835026106440844141988400241478144121834532902319838107107506935022257004113890659210213209818911839341902038594419688552602019446096602223098630184948791212308139401752599633968468089016534640655531776250155186151595748987401447902301600311781013420264643214375560123492694459095190101127412985287275579010202509683664140260091402771492608134200890724933605774030008545204141189395160073027421712846075000615434163384694688005717040269374828470053009068701615584600411287539221186017003373739422087392700031075670156371420100226409598921910870002540511260258631710028970131557983024300211707312760419823001,
  385333555911521690641072732659830537006229363234570584787061790038147523673820602088784703601338205854250756641796418057138370852160916370553464696379687088605485136763344484364053205231671144554820514851597504745671305011242676273885990048255284131378264420475677596059669942904612362360972701024044263412350380684810435489862170290681804211185640506423328040222693715900669960394329778729234367103882164767797205275037152092245535989270352744455473572051103448244185824485421033825600895937927170321374395998292561503022239878753656098029349522030693376680285330401559844653102778811040318126331026112857186403781370241563622692308239402320936804256863973022270611340946401230213371965091677253102040450569209063204019466474276130017650185162948461291033001754749810901853453016555219459858417210155373440898330616001449518816430628042013433456667050956110123594141093716482801128145292202715449010207450229477870250091433766005954640600892522357810608874008554771993065439030073073773722414603000615636372032950180005724875748032682140053035543093356509400411363461355590545003375507294537950810031078723454658115300226438510076040811002540277884092647060028955508532050894500211680004447504200001,
  437971006075155060641216435499702101906233219310728846641061891710779046873160602352117223201013005860948148181707082057155091811997519840553874352130374030005494981892205767506053228432537711733160515387513645837141005012455567051856883048282168122933375490476260933813828242004613600870534578337044289129407751226290436011856649056521704212220790061239396040242738051680138480394708551393662985703889145456673288940037164631486309292320352963838658911037903451979992656082662033887471872200644550321473974291252688203023796025997577982029373113541153193230285677031498015655002783742107567956542026119641562395613980241653794299647524002322093132257013064022284899079645968780213541825351659426202042390515148324442019487722534505015260185385737629772038301756981473895750130016576528716072023230155566929576215783601451184979408942776013447022462940058120123698221390341816201128894879311723263010212495717582281430091465346117047425300894349537969017400008564475943507405380073120677440223172400615840519357187279005732768237774162440053062148793143144700411439582199813134003377275493986374770031081768883501656200226467207041297104002540042737508859490028940925103999869400211652822552710881001,
  497639703190730150641378955225994301506237570173607838419061100616266799376620592647858912321146605868452323073228971057173783465309417120554331224485355612705410593624182864413052254187376131101680515981041296099440605013795723117004850048311803951187626230476902487667959912204614959816514194857044317281714532314890436581953442880715904213348703741932815040264527920475518230395119352750129841603896698847167107400037178167956814582490353200119343954581803455994203025789827033953799380014341160321580477466372769503025456529979797037029398228735291117410286045193226240871402788967338794169060026126813999937608110241748902779534969402323309943868191861022299899347605244760213719743763188651502044417790492400895019509875961002175630185617480620051063201759297463845257449016598592119072626150155766803715467972201452902160701223968013460971442307395340123804995295761418501129662098130708995010217648028331105210091497520893852115800896206861990304449008574317429812383760073168137300521659200616046615874220500005740717888377750380053088885717444938700411515900623650793003379043992308078030031084806428419963200226495690750475361002539805841105548760028926381180926010200211625766211701541001,
  565257666634807760641562699152665329806242477825270571492061113496174929552360592979901556782143505876858060630339724057194672203814774000554840615227914732905411812149330150547052282769764772328820516638203388774518405015276122347444224048344465181754675350477607896137821726104616450556513939280044348092725290922540437204444187811408804214577422830292256040288210221814336130395564797471691056703810487025087308474036192778053273240830353454549693773978003460306751842843574033102489141385330660311694366878979754203027228084187696929029424961568868700170286436161257381544102794503420783494605026134395557373839550241849203911697034502324590224551974978022315645572904417260213906078708063369102046536066480382799019532970407603366480185858510348930089701761700711869750394016621434058005373230155973254395911581101454671763858597401013475313222555564250123914523919182204701130447306107245307010222909069006097330091530299510556623900898094721281775250008584297898132104800073216157750757042500616254672089755750005748724848285666280053115753779100881200411592415494808455003380812761532331070031087836075332224000226523962135021714002539567215294596000028911876669355954500211598834567810891001,
  641860012687600540641770375341947674506248011851512351581061127986364476797340593352592663363759105886270992298128907057218009753722263370555408405721517356705413167231548504691052314481777955481210517365634725415075905016911027756871770048380451770050448950478383327267292210404618085485821870225044381805742400384330437883990826940902004215915662100718236040313943787638492750396047706026451386803811370843178360196036208543800947657970353728470998958376003464938943088419404033110107635189123210311816133268944894003029117791791947832029453411515227395200286851281794055990302710036793767854397025142408373512534850241954965969054787702325937098242985436022332172651932989580214101203429828274402048749157587405657019557043037175864950186109171089824825101764194241889517742016645079634341969360156186477808560986001456495226517184187013490057630849258780124026869550527381901131250866697377876010228280774091896270091563691248332793300810001351076171855007594418803465495210073264743251434492900616464698497938733005756789264599613220053142752887338974500411669125678971054003382581773842426060031090857810555147100226552022124989812002539326880303034880028897411475265587500211572026771964784001,
  728613539109520260642005029275943111506254250326777777957061144283356956334810593770787465949334605896808811929791439057244075935567547830556041118549952248605414673771282817404052349656869852730130518170642329048579405018716110965872322048420092529288243290479235526799737953004619878129169225119044418685620670617000438625656475516784404217372864251904476040341900316550988280396571120271580315203812326585920754529036225553252382725800354023319757622805203469913539816288092033118270424506686910311946298545661714603031133189512418508029483683872987241520287291976548443298002710657941656396363025150875719835024090242066470290447717002327353833353904279022349517009427799970214305506604641062402051061026671481878019582132367321180060186369818824384061201766781173267386414016669554680371178170156406675375396322201458374021110037841013505214707955395960124142095678948110701132073149443587681010233765105552208490091597705496098101300810196362887226288007604681609650720140073313898275977704700616676705580905186005764911283076632510053169882947795829900411746030039875123003384351001575825760031093871620799232400226579871648998665002539084856174589720028882985504098364600211545341982599266001,
  826833082541506730642270084890063728306261280824353750971061162607073020834930594239906711779698405810860261744342322056273181716508346770556745985530498517105416348250906727892052388663041731154140519061271572299945205020708587171861932048463747822012208720471017187058974325604521843240331651045044459020613367786700439434938767919903204218959258577673908040372265378462571290397138320183092284203813359897847304210036243900912648961870354340634154522436203475254859804165643033127014818385592790312085417676159468103033282272803409394029515890089986857340287759746754173391902711315737523121358025159822055069519390242184011877869122802328843849022475043022367716660780202540214519392932283014702053475790288990738019608278315549920270186640821603848038801769464723516739201016694885778106103480156634053871523706201460309655591337561013520794712138687490124260267011548491801132914530053406037010239364053107305770091632351751277338700810394547759210575007615087789356700410073363627310588442300616890703808333041005773091048125072800053197143862536380900411823127439379846003386120417224299330031096877493165064300226607511634191325002538841162771205170028868598660783245900211518779365580657001,
  937999858920978170642569390474106496006269201543772204701061183203549019905900594766000853055236305812179839773042932056305672585202932870557531022740167028205418208898010647612052431906319537626500511004637861601071204922907362654598821048511812494757252700471120042161597391404523996910221557885044503124370934417390431031780587876480804120685924194623061040405239494735683500397752841800760531503814476850061234560036263688193338128990354682060962023516103480988877193743550033136380574720185930312234080682002866503035573522427179436029550148104273042540288256177379380683802712012237221944162025169273082229568890242307900019186211102330410721609497171022386811276690989110214743283747959482102055997724183802150019635522245818374110186922559920382330601772248211077359672016721100278616121760156868825549758046601462303674172998615013536808123113194380124381449492325134401133775390478683191010245079634512825970091667639620564189500810595946244911246007625638824074103850073413934854105294700617106703636996218005781328702800658160053224535530073681900411900416737537492003387889993434041010031099875415139617100226634943006194546002538595819774563630028854250849752366700211492338094126578001,
  106378202139836680632907270003890059306278122568673501483061206347960886918140595355821334899862405813655868011086043056341932282410640870558405113257446543305420275865063834814052479834571320007230511113570974197226304925333195944637821048564719077081965020471232999198557461404526356684170516420044551338104592363540431128073542470270704122564858167090785040441039299277038280398418496472844650303815683971230395971036285023897170514300355049362889150028403487143330476586102033146410053829988170312392914750921318103038015932488135239029586582702986027350288782941550399088002712749605923398205025179255808220932260242438458937353445102332058191457107701022406842250254078920214977617655554854702058631268955138856019663907016463308110187215427088628417401775135058160563897016748226321791437450157111208267667202601464357658073860418013553265646050427730124505710321322703101134656118995511286010250913895839866040091703578820682694300810800599253278570007636336204105827330073464825417861690000617324715510320391005789624388802670830053252057845388846100411977896792663384003389659703005778130031102865374592588100226662166689079090002538348846687592630028839941974958286100211466017348727960001,
  120605769726780740633288580529809407206288167269840138821061232347989211240910596016899743201460505815306435519638797056382386923759360690559378098390268288105422571427044279147052532941696695034080511233998821564804604928008873880176517048622941268015413690471357021035247612804528941689156098576044604032927947139940431233075646885757604124609048894410477040479898786407730610399139391490963432103816988280742897934036308024735187754630355444426406476791703493747837203324834033157148381218284330312562586469417857203040619040003605465029625325900025840460289341805195994367102713530123604822843025189798606124678090242576028467164550302333790169916966631022427852766552556750215222851183025777602061381035909416358019693477029572362350187519829637717435501778128793665106556016776292856548377400157361425617116700601466473226281617306013570178215644540020124633117974006764201135557110284803189010256868911756363380091740179179148542500811008548050660403007647181428556954540073516303525543206100617544749857940786005797978246470249230053279710699951085900412055566461405326003391429518894863880031105847359772748800226689183605321042002538100262835964210028825671939890961100211439816317071973001,
  136694079548878660633718776319048006406299473869725351808061261547562983855850596757635655734118605817151669774254708056427509554751363780551046087823561808005325120198780586976052591772223531428920511367100937153728504930959403884047009048686997734898925310471493159520648631304531772771787262191044661612390717191830431347549486626901704126832555151523868040522070651742227280399919952211453997903818397324168548056036332815878626464300355869270076277619903410083401581488703032168643620032439790312743804182929255603043392956090835772029666517333426307620289934631922462975902714356190799898971025200931280268464950242720964760626253802335610746658281343022449887874853200160215479459460635359602064251813101429303019724278281828223460187836187713997890801781233056165368175016805329661483594690157619707056354267001468652036327651711013587557000235147270124763742220855082601136478765513526893010262946785809743950091777450635030096400811219834262022670007658176005324197730073568373713044094700617766817095261642005806390414778777040053307493981737825500412133424598812425003393199414211354430031108821359304311200226715994675763757002537850087369577890028811440647594386000211413734193965908001,
  154880990980626500634203980526272968806211219718658868839060294331023512745030597587394127984655505819213960396344368056477825182055517000551166552249796817605327949373914257006052656926350238059040511514174467551880704934212223907833892048757456251702150030471642563452725733104534872647926649286044724515219791014250431472322220633218004129250591201954021040567827732736827470391076494576595290603719919211179701588036359531547696510260356326053419068376503410843561501697401032180946953775599530312937320490446472603046348398853731529029710304683406167040281056338813038011902615230334619000021025212685134202332220242873641022076312502337524197265944888022472994563488356080215747936922751793402067248571570399858019756358416865711540188164935494734056201784451596973365127016835367365985554700157886288044674446701470895785074938485013605413405988347270124897654147168821101137421492416596828010269149650710836560091815403239709139000811434499872156574007669321451084823030073621040528323144500617990927623017871005814861031336396890053335407575254950900412211470058403424003394969362220076640031111787362183316200226742600819580825002537598339264039740028797248000682908500211387770181261973001,
  175434067964090180634751065254243949006212651057832854180060331127754429567450598516613842046753505821518206786060898056533916329493440150551300539258310381605331088987569901626052729065475553734740511676645558550791204937797431614948142048834938206160816750471806487233735985804538266064897308485044793218283973525200431608290862708907104131879618431959825040617464556025569070391167950647073246303721562656094905491036388315639623785680356817086349511154403411658865114265472032194112879848901190313143934880857896703049496728056938624029756844112111514340281123014838424975802616155215052296032025225093041699801960243034448274208731902339534991139403808022497221837516756320216028798033954880002070376471776539210019789766779181777920188506521613036436801787788283276145312016866437471811729580158161410179703623601473206209519184761013623759081136484400125034926173104853701138385705379422902010275479668619038820091854047157641270100811652587226872282007680619291285065110073674308531258834900618217091826838602005823390232380618910053363451361557140300412289701692234506003396739336340681730031114745357774049100226769002954239642002537345037322126550028783093901357218200211361923487783004001,
  198654201222522020635367740961796564006214260810828970280060372417328593137040599556927053691668705824092092140110443056596429171905377530551449527608168102305334572205016431068052808918261552022880511856081810450721304941748034509742813048920123507534952620471986300273197470904541979977295734183044868239800026442360431756427979642348004134737443986552371040671298999149019040391266916305155311703723337021219094093036419322398461262590357344839216574474803412533155397285702032208199414534323570313364496518648298803052849981679099497029806300726110409510281193710104679852002617133631568037500025238189520909733630243203796156210733802341647799703225329022522620799257660110216322578040214789302073640870243918501019824554469639309340188861409594290982501791247101350159463016898572375140064120158445321337346216801475585087603371915013642605920277201280125175632073930364501139371825521116685010281939031428718740091893392667115866500811874139034178926007692071060128013630073728182293503763700618445320076812613005831978152775037070053391625218268267100412368118350966424003398509310147679340031117695335805462800226795201995465832002537090200175241870028768978251420077300211336193329249070001,
  224879661535513570636062656283115386006216070695774400158060418735228084424290591072129259024045705726966386588796905056666080305317590130551615153486373407605338435638815420416052897287279728070660512054205899911750704946100222866267656048101375592943564990462183497200937910904546043737513130387044950142798941857210431917787837684011604137843326922090788040729674074800968590391373986780847873803725252363165099513036452717129324481680357911953484881181503413470532151079249032223268310060883140313599907186975218403056420914441574472029858849062749303500281268655419016661702618168530018955866025252010811789222200243382113755259703202343867504940703964022549244731795693400216629833745929786502077047326415600892019860774402606663990189230078304359767501794832159854233188016931805389103461640158738275814433852201478034239045872726013661966068732372860125319847000501315701140380280778357591010288529961056855360091933450161015644900812099198365451066007703678300561008540073782666398338490600618675622727056109005840624926006158790053419929019601940300412446718883931294003400279257370469290031120637286367630000226821198857208461002536833846284860830028754900952291670700211310578928204947001,
  254490634110386370636845509440185796706218105011241779844060470679199432660120591202414328119451805730175282461988219056743664217568912670551799226812216259205342719697185347682052995056294552805580512272910474229447004950893667468894416048111664892503015640462399708957669347604550489302152830162044103953887281941770422093513031364903904141218092426502388040792959846271252900391489802785326487203727319482352899233036488676959868631240358521253096322342703414475368423394875032239385284431038010313851124396550638603060223038413549353029914673601531495920281348094179677635102619263009870241420025266594956952753830243569850472672153102346199208262215229022577149185556608250216951144317630219402080601609727123461019898481364775654770189613022409830010301798547693202777973016966170766816027870159040534474118611101480555526182307206013681851926967429160125467647499965606701141411505989916671010295254709731888060091974230147575639900812327808656581165007715442564262503650073837765440524633500618908010115282217005849330684180330200053448362636382081100412525502139198665003402049151893352830031123571199908212200226846994451606012002536575993943963630028740861905024752100211285079513948500001,
  287914289745825880637727172561029662506220390935339795986060528916312768836960591348154934589803805733756764996021962056830061529836930550552003749183088602105347468966563862813052110319824379522030502514274433217587104956171844348825710048122969195502693210462636714835956470804555351455624320669044113709222425333930422284841631115297204144884254696981825040861555483352614330391615053856061295803729549975895399443036527391651994925230359175756553284868403415552327937640139032256620264720132850314119164669183006803064270665799320849029973969301731007260281432283026321270502620420331763110055025281981886078058580243767476926043617502348648239720421787022606392068057394280217287112115180308702084309706904587983019937732075701848980181001075285059533701610239806502092479015100170372490009230149352364894053312301483150854821314289013702276155071671880125619111536692601601142465942981841018010302115560283780540092015743251141670100812560013709118257007727365411628435670073893484026157402000619142492562372912005858095558020775170053476925936063632100412604466963641158003403818967755534800031126497067228952700226872589688953036002536316661278461170028726861010319413000211259694322459890001,
  325630454768870810638719830361115150406222958858601667290060594190800832007310591511139941905489305737753022125366173056926248086383458460552230933622280628605352732631626495864052122278398025802710502780580723973003104961982388886413957048135385737218063680462896455550285507604560668052293746631044124352404178195820422493114888793291604148866149106429061040935891468607101200391750481938380067203731956294092655181036569064466954056410359878689767230260903416706383582476738032275047644599375330314405107005280373703068578954018609648029103694216751018990271521492522102137202621643925428534098025298213504014367260243975485888765089702351220167584825611022637033736937171420217638363551330908602088177829493763309019978585250111870850181042379732505734601610638777168327596015103844046752300530149674041517400854901485822175114406910013723251677300109470125774318513429873301143544040653296946010309114826435273580092058000212928114300812795857691392371007739448411758065930073949826772517409200619379080371952592005866919676864722950053505618782753297900412683612202999436003405588679151111870031129414879482181300226897985477667592002536055866248607020028712898168537626400211234422596331661001,
  368177948702612610639837134805670976306225842754392706666060667332761723003520591693360106710558205742210897366950757056103330497737075300542483226304505095505358564936321287552052135499184538356680503074335784747381804968377481850455586048149020790966236860463181047421232692304566480278677656906044135961722671871670422719785543068792004153190074334103450040101643196455625160381896885219499976003734551800770334116036613913087205239040351063349971888769003317942837024338823032294746556872502110314710096545084348803073163953196069796029110380984186720970271616007868892893902622937397966306084025315333782744379790244194393268351598102353920808288583189022669137096378682480218005549980501629702092212421626778441019102110166202358310171085270078824302101611052144593801814015107641821095299230141000584580671664901388571482440089619013744791686677415190125933349292688861801144646255063074844010316254853094330090092101011891775087300813035385139625124007751693142439338460074006798307921987100619617783829964401005875803168660662890053534441037230420500412762936701946838003407358260429050490031132324628167351100226923182724259469002535793626650403960028698973279717470100211209263584699648001,
  416161666362853620631109437754814261406129080590957076685060749267818082289950591897030283778007205747182390204483599056115242958784277280542763330451529996405365025689806804348052150111815150317330503398290786023646504975414270163325024048163990482453155520463492797765506216004572832937281575763044148622149857610910422966426769640321104157884445183125601040110367735307068700382055122232099228803737350837712944109036662170598590619650351144386897898312603319267339507817316032315801161857778720315035348433893115703078042656181684371029117480223079918460271716129657160607202624304542505209288025333388857356884910244424739125068117002356756236760910055022702767697033357230218389348617693337002096420168033131847019106534421072584980171129802596313715301611480386061814682015111567520864329750141034806640074682301391400818302407544013766909649664522490126096286218360188701145773049516753195010323538016647744620092144789264904806500813278640959025770007764101190133710600074064403271575792800619858613204248184005884746159965680650053563392556967891000412842439304153234003409127686093151060031135226305127586300226948182333299021002535529960116994040028685086243587102100211184216543174708001,
  470260489669598680631250868213650460806132714789664391929060841027835045139230592124614009325831405752725208818140065056128494777498639370543074232608460924705372180821538301580052166258865636851900503755464829770357204983155325416365752048180421675174661700463834221590932900904579774753808379989044162425890832365050423234741824505946804162979956857800526040119816695899259650382226116245605098103740368793457955717036714086536597949360351231373114123520303320685913912424088032338300952490676970315382151902045916703083233051229537151029125016215912949880271822174652074235502625749347260706885025352427126192949500244667088732391066902359732797158847111022737993839566451740218790463488458383902010080800230192751018111137798866579020171176035386553678601611923993244160220015115625077685412930141070099927418698401394312271244106891013789619310888462200126263213137560216901146924894654523993010330966725255918120092189343428677208900813525670424873024007776674149960489560074122646313420886300620101578744120901005893748775942907920053592473196153134700412922118852348493003410896930802001100031138119902546255400226972985207386745002535264884120043370028671236959578444700211159280733775284001,
  531236123983378640631409921819654967806136792734503184784060943762809985857560592378850710608491805758903380485351022056143232728565565450543419231531036399705380102990135875602052184097112106225740504149170281803967504991669143414688153048198452932868375260464208059703316001304587358709593979323044177472979089532380423526574431976855004168509761527416092040130048197083072280382410859964548063303743622176733473522036769928000709405050351324728722230679703322204978137999880032362341077068331400315751874570977979403088754177468489386029133014605951280200271934476617486984902627276005007216326025372499355334680030244922033680897217802362857114012604505022774886681942199350219209626410880436202010538311540241039018115927035129241940171224028434273954401612383472590213403015119818532082197480141106494790044578001397307977774582665013812934697935982080126434215422709849201148102268539678771010338543419148777020092234685599344697800813776519183582378007789413625680661270074181532093986203800620346690679959129005902811140359067870053621682805709201800413001974188385354003412665969368917330031141005412943562000226997592247123597002534998415971116230028657425326840599600211134455424860783001,
  599942964336697090631588744004178911706141367338405085360060105875405880080440582662785814829196405765787925505000253056159619253693594520543801969935931526905388872251092095972052203798905048834870504583040427316392404910103068830600953047218235565502352010464617298340546923804595642401270138753044193871919069224140423843919972829446004174509658060438526040141124857222555750382610420554577626703747128694839619806036829980841072348140351424902308652202303323831369894977267032388022680604950350316145966997217524203094626183304606970029141502469619914370272053387179507000702628888922982717939025393658787611905760245190193027227705402366136103799162816022813520350572551070219647598010542543202011015296447005474018120909098890669400171273843662638442001612859345725275077015124152036148600340141144022341745856301310039012331279354012836870126211538560126609379993846979301149305656747756088010346270570922833150092280827113806014500814031233253758919007802321229680222370074241065284236504100620593959222783916005911933375582130360053651021233315886100413082004153301754003414434776761875980031143882829173159000227022004351081947002534730572823035180028643651244253028300211109739891065704001,
  677339108636845190631789735242560105506146497672575948452060118742883640310790582979804058023697905773457601074467459056177834089432785740544226469389665779305398576788837749239052225553672444247430505061059656016590504911132198514597916047239934765813938040465065190458453430504510468842980709307043211740379632219340424188937531953553204181018295874079908040153114129879510140382825945018057326503750907337292328174036894550921979017040351532372795644627403325572372979857989032415453265817736940316565967466784581303010087038790176803028150508392520923720272179276731442071902630592733244150748025415961256308647520245472214489831778102369576986959282355022853972055456689340211010516876948800901911512528186563150018126091200056903180171325544989976907501613352149858363065015128629856278139250141182714479659629101310356094314532139012861440203860208740126788795341173544301150535552456349598010354150685839363530092327779430359131800814289859027235498007815398582953008630074301250565420738100620843394563847798005921115602579059450053680488323430941300413162207587382642003416203328103431980031146752144418782300227046222415777210002534461371671236180028629914610438434200211085133413234603001,
  764498647889310590632015580644539300006152249665663704408060133137654332728340583333666324884582905781999722181365554056198076059503480490544697168637455396405310931371918623285051249569563681930860505587596401094512604912263276507438034047263730843981146800465555278802659860904511456482125269065043231205942349178460424563962869089182204188077393909331192040166088663594279560383058665942560224303754978465067881479036963965466907745550351647651407389451603327435745120630775032444747074815807120317013507053068041303010750934589377481028160062549264663270272312535381979446002632392303492783491025439465303758040090245768775693254814702373187300373564225022896322209442376870211058316011020674701912030808451487250018131480797011656720171379198387997475801613862438199641387015133256375950957620141222603901471602201310682272339975838012886659836756100730126972551547838588701151792456535577666010362186302123703160092375554129453142200814552443270096011007828647315083027230074362092628919903300621095006874224182005930357940913666570053710083917311340600413242583330221212003417971598670626060031149613352190903900227070247335640184002534190829355110850028616215323775421000211060635278357804001,
  862625377864008500632269282893368149006158696880313520041060149236668599597370583728550383782899305791511067264604350056220565047794269610545218965701425543205312118996872322077051276075247088724000506167439075450937104913506116762449329047289820568622243610466091420911268665704512534548166089283043252406908782986600424971522380767813804195731975810946242040180126687424179010383309907647074883103759363905807306187036103857449015859610341771283757958476103329429747481440947032476025492620031490317490314951901355103011456691548846845028170196787294911740272453573948539853602634292748389504795025464232305021342230246080585462795504902376974910313706479022940654551743999430211108242551570708901912570968353652567018137085604434346850171434871941513543401614390780387681452015138036098579549490141263724122939895701311017780203360104012912544233556824050127160740312958288901153076877639213261010370379991265631740092424162914439064000814819033123683895007842069064226283010074423596176094345900621348806304398753005939660508744555690053739807853034591400413323130220779628003419739563894882660031152466446323405600227094080002989997002533918962559338310028602553282410903300211036244779507887001,
  973068092547330090632554198903033314106165921375455707987060167236877542427000584169095917786598605710209887715822798055245544169729374300545797264108209890005313432323830233693051305321874982202180506805835269469532304914871450506385526047318418622980558330466677816204504856804513711068889147205043275493171248731480425414348126408334904110403062246585776039195312424010832700383581092752312469303764087055361744295036111875232041262140341903852068350531203331563175920651352032509417473699969610317998224108232949003012206833013186590028180944714896176040272602824997826280002636299441380767467025490326596853953200246408385171421126202380948025885621401022987056275856261860211160385168676268501913133869416680273018142913601339895120171492635909719558901614937762926754019015142973650414218030141306109495742380201311362856983884001012939108910824621810127353454974874467101154389332296476056010378734358320856420092473617612319566500815089676105595813007855665477092127900074485765918130614700621604802983863702005949023422823179200053769659965520145100413403847097449208003421507199361896650031155311420970277200227117721308007724002533645787815208230028588928384272231900211011961215776907001,
  109733763735276750622874080602723121106174014663548044095060187357436808076100584660454292577354905711388195666232156055273282161389544320546438023639332443805314884305845367675051337585231390937760507508534497160688104916371009407071147047349759185864199780467319035329648604104514994762416549507043300627151863954880425895393996678524004111302574313231043039211736532064423640383873749203180737603769172986083194059036120489922185644080342045977520211526203333845394101496504032545059992774991220318539177149491463003013004027390814001028192341793579682790272760743935671996802638418027056730412025517815612168761150246752950140893414602385115212981602749022103561816200642080201214835973745200401913720404598839150018148973039345859120171552562789050571301615503989634351501015148073783509295640141349795225652180501311717747146242269012966369698214684010127550790534652298601155730345004484114010387252042213555120092523930174497472400815364420110660099007869438208924100970074548606575887769100621863007020713814005958446798491981900053799640086550807200413484732798110027003423274480811508800031158148270602331000227141172138710645002533371321501935340028575340527079146300210987783892214395001,
  123712591958162000623233120301521087406183078772959933396060209842147345773600585208343546171522505712699188899494207055304076007610070420547147816034135799405316489194521468447051373168078908512060508281834801924916304918017616048912055047384097647678540920468020051942685180804516395094647875780043327984815053193110426417853107747476904112277386647602479039229496580277048970384189517773269326403774648562289666355036129744311884424450342198322754277360503336286368559867305032583098521190749870319115232641486014403013851096085946593028204425435053276210272927810148380452202640654434063993749025546770020214963790247115091099126023302389485408759290187022108643471429231890201271690643013931501914331499347242942018155272451172598130171614727377661303501616090082099145969015153341378751187010141394817391046221901312082700644278079012994342743731270970127752843679818763901157100448321367071010395935716039989590092575112677523055700815643313411900187007883388923480284130074612122879743240900622123428501245213005967930749682650010053829748044794258500413565786160190075003425041384137572060031160976990003938100227164433380927128002533095579847959400028561789608355423200210963712119766054001,
  139432709522847650623636001134743610706193227426750004735060234962157580663570585819109133619201905714157437437458965055338253832288203650547933886114644854205318262666565673234051412402722586156450509132633559607646204919825282337929438047421712472716826440468786277122184430404517922341320863631043357756759046701980426985176510939347904113333595291916119039248697554809271290384530160083075177603780542563359861630036139684143041766410342361594522028767003338896705839356319032623687530249165050319728571683452202603014751021841825833028217235102989424170273104528197840200002643014888596191299025577263872698424510247495655695862501302394067936665731794022113960430265762320201331048545107580901914968112684201559018161820659382279670171679206841561038401616696680149589431015158781448949295400141441212961751582901312457973026260396012102304451905216490117959712808342634601158500182960038422010404788087373154470092627177323840012500815926404661482641007897519293013161500074676319569438175800622386077489556210005977475388914443240053859983665824561500413647006020723724003426807885387804360031163797574269786700227187505918272084002532818578932240240028548275525440345000210939745215213219001,
  157106117513202360624087953146815300206110458735026104813059263018954267094910586499791012795046605715779070507222555055376178076325571480548804218844925600505320221962321108282051455653810328630880501006848284511405804821809316509117829047462907219765827920469623596626062322604519587655050007048043390149392315584760427601093313584293404114477772980319638039269452402634233890384897567165696781703786885814940066417036150358302137208260342536546499521307303341687691809582156032666991022940460360311038150485966387502915706957515324768028230812419814953270273291429072793045002645505928486618860025609374756077978560247895530078836129502398872522025435853022119522930986027100201393012872783207301915631238326606890018168626785362682320171746080782441468801617324442333368367015164399141990921920141489019818234634201312843825541805487012105249182492209110118171498052857610201159930097882629772010413811898568474150092680136442530173100816213742891650279007911830998249006930074741201393922431500622650964027150996005987080827292650120053890346772143790500413728391216409873003428573960763639450031166610018801660400227210390632123171002532540334685541950028534798175499891400210915882501112992001,
  176970031991746280624594815624601553506111729972124732547059294347672051401770587258197715438113705717581939046369201055418248991025191450549767612884513799305322386037380016442051503321390948950840501109764975978612704823986439464123797047508012734043518540461053841121814261204421403137728464551043425386201315773600428269632313568084304115717005096829264039291882613172639510385293768615843900303793711328775123865036161819027694586340342723982272852053803344671333289983021032713183095599380530311107647956587298502916722235304009519028245201278755854680273489071498731145402648134417928006904025643183950280522430248315640532644955202310390930821188459021125341628359444250201457690778980348601916321905839252212018175700258561847110171815431307235072501617974046407925294015170199744061219340141538276771137772101313240525250460586012108270179661560830118388301305129063901161390750395582774010423009927070502870092734002490056712000816505377515639404007926325728366765240074806773111199010200622918098132545245005996747174507109370053920837183203634700413809940583669315003430339586620056070031169414319305237200227233088401597376002532260862891703810028521357455537773000210892123305739111001,
  199289812242713140625163106360259251606113152177767101068059329320754813552380588102988111230456205719585794691711361055464908477375587660541083376124668907905224775728476049589051555844252870996510501222918215020879804826374911226823418047557389524519775310461153768030891784004423381918707438045043463709116373687800428995145257241830904117058928245986053039316118840810249030385720942360256999903710105445170620523035174122130861899920342924758505250247503347860402107768087032762448531085049340311181608772972482102917800376447695724028260447961380714590273698043309001271202650907562845528581025678776594086662650248756955182652723002310918887342260947021131427609393124380201525193517306520401917041181823008893018183050825979792540171887343099442628101618646189842266364015176188682929323900141589023581168849501313648345131969563012111369190947010960118610226240766177901162882706245401412010432384985720645090092788788051005989700816801358328581891007941005180976466590074873039488168151100623187489800874555005100647453883084790043951454715427095100413891652958701807003432104739465409040031172210471786909300227255600103528396002531980179188905610028507953262406160700210868466963023508001,
  224362220867817460625800098594533973306114742859986956078059368352005195667830589043761642440425505721812486877545313055516644304505336700541201333972810771105227413934960847696051613703568455958850501347298018529748004828994668368655804047611430341784172180461262896917368239704425538239198006256043505379983038532810429782331837989639704118511771618804899039342301571057642050386181425090010189103710895302441071606035187327229893959140343139788296331495603351268481725525631032814983425164742290311260307394521721302918945101427548746028276601260896857150273918962879799720302653832926950133808025716241857447731000249220485766302872102311472224807854612021137792409624787230201595636587088489201917790171138803302018190688561923609420171961903492268877401619341590330274892015182371531301774550141641300979348225901314067564198239037012114547998448945730118837378344180002801164406539715062181010441939923065856140092844505838827823800817101735508391510007955871062097144390074940005300470970100623459149003505040005101626302711880040043982199182230191100413973527177542420003433869395961242100031174998472550622300227277926612444530002531698299070922570028494585492816281200210844912812498564001,
  252519052414062710626513906470706756706116521508551836435059411901062391916740581009115788307275005624286179825310067055573994743701466730541331810383698049205230325817285689462051677426871081969220501483987429764908704831867473324927690047670562972823267940461382050003137913704427887543373435144043550682146752617930421063626656090222204020084401348841776039370581833290625170386677723397695571903711744755049418698035201497999375284040343370044744637486403354910016581152643032870995847866747240311344034404223895302920160340686831859028293712611464339560274152480631851781002656918448500352275025755673121004468700249707289474314994502312052093286904656021144448029982010700201669139883123824801918570018168361883018198623878032416560172039202543606366401620060986315756758015188754010244372750141695150687618632301314498467607025029012117808419401888380119069864933789067501165962833721083659010451677623668333080092901168696574255500817406559616634767007970925086134290130075007675332332725800623733085687646694005102611274480663310044013070394043729900414055562076117445003435633532922096840031177778318194738600227300068800547046002531415237888368390028481254043348736300210821460199240007001,
  284131171164387810627313579916811678606118509813770830617059460478352299569060581125696636017500005627033591376902211055637553657776911460541476099501300315805233539014034575353051747592394438937450501634171003743257304835017076598101011047735253270359207170461512120728915203104430446576685375850043599922159253580940421156242760769373604021786368066235401039401121963199216360387212525665158017403712658137658043451035216702435068769040343616564725194806703358800364290276213032930706541656116600311433097411322856202921450245898501907028311836223804331060274399280601682847302660172457801778299025797168163087314890241021847086431399702212659691746457713021151406954225777860201745827850270481301919381908112712719018206867533578763670172119333112907937901620805137529444242015195341992673621340141750615439822851001314941346777358545012121152306749167580119307795187473074401167552179911252290010461601008416160030092958789597636661600817715881599385890007986168975856814260075076054376405678000624009309775968969005103602379590965200044044068158335085500414137756490299775003437397127315309900031180550005608918400227322027537689315002531131010849930990028467958810463650800210798108473810533001,
  319613003088240280628209209970128943806120731908854297741059514650558549651130581255424766663674705630084255810093738055707976089271020760541635625700408579905237083879191448839051824833806027828800501799144043281445004838469392924754305047806008435789222720461654079728085064804433233491945283901043653431615723954640421256672784527113604023627957871455776039434096418274557760387788714750282721903713640088408484802035233013135326385860343880452894471353803362955850869238342032994349658380334260311527822002005106602922819201806000174028331029227390369870274660082085507302102663603695474580039025840829354488391580241075518384952956602213296269991982996021158682166996820380201825829643016009601920227068329457269018215430646053232880172202390939989359501621574825538191407015202141506918918480141807739003054497201315396499506730425012124581549724827250119551280168276251301169175178763006160010471713034834912150093017381646481207300818029752788066081007100160446237354420065145147233611591500624287831166219116005104599628302181260044075192279630039600414220109255963752003439160156260802030031183313531971021800227343803691356285002530845633023597980028454699690510603100210774856992204043001,
  359427531772322380629212045664192732606123214638295339574059575046667784494680581399746699520887705633470812977922202055785984394999202080541811956334306709705240993741472232069051909845369590199680501980322650031313104842252692569883762047883380576258358700461808981285268689204436267963762999617043711569132346121060421365554813124789604025620246965246811039469692649876776260388409381524335656803714695569339636884035250507600051640880344162885935786162203367393829144989730032106217353702917400301628552740528935702924271838664777434028351351819523343620274935641358883556302667221331520526368025886763861305573950241131863376529017402213963130679066897021166287172483771800201909279290171520201921106769709848835018224324702039116140172288474725804140901622370854306595298015209158740356685530141866566199387047901315864230090054506012128098074442831490119800432850360971101170832439682473978010482016697400187280093076958079382566800818348224900266707007101723328510923960065214958712983851800624568659730842784005105603030731481190044106442559534621900414302619209039401003440922597030856280031186068894744032500227365398126644680002530559119337871490028441476579738356500210751705115790557001,
  404091853478591090621033462371562517906025987854994964723059642364647869618990581560264133337843905637229326336139012055872374978862769220542006815695258428005245305187712936695051100338757415716350492179254660184888604846397809005978817047967970558003520350461977970317603054604439571311977921397043774722474607484140421483577308023244404027775160186950510039508112035653687060389077839314533736903715829888123677644035269268548259894290344465117058941673103372132740526934842032113444152445513280301735654223329825302925813045313337780028372867421603937480275226753475411175302671034985222227150025935083856169801380241191007951612743902214661631398905897021174236013732690960201996315864839382101922022328096738815018233561568384195960172377686215233479101623194050771282584015216400043117626440141927142927986451101316344849440429134012131703844493625430111005536814521306201072524581104170453010492515027851067920093137532265155880400818671350040556816007103305719178014290065285493631509275900624851805316607365005106612596853728160044137818796757014800414385285185566294003442684427049891680031188816091673003600227386811706243620002530271484582977080028428289374304372100210728652211261770001,
  454183352358202850621159091237708979706029084749130086067059717378823563168800581738750167903117705641399632665492507055968025679619440530542222100299867838105250058372479337327051110629327061501630492397631540291117104850938364335374263047106043217983393170452162289919607489204443166634764770663043843310847434410100421611482946595588804030105533730100228039549570876321011140389797639309885110703717048721201137330035289384255342091030344788480768597498803377192180324895077032121143284130764340301849512188757171802927447982903883402028395642842929696810275534254147878249202675054745908524937025985906738177862010241253083580639970802215393186840087237021182543292618069990202087083659807476301922975105744477019018243153503676804000172470130281935010701624045265428104080015223871931868332400141989516187612607901316838675211716663012135400861548108670111031620292809960901074252230591345624010503211095504483700093199117705886855000818999180701274315007104907793836905630065356756813969549500625137277744227862005107628336501406250044169320787129442700414468106021746756003444445623894223170031191555120782019500227408045290415847002529982743412058250028415137970284178300210705697650577230001,
  510346563342552400621299647096472539406032542212068147729059800948020565914760581937167176846738705646025726560601019055107390387553272430532459895621416777005255297356252673300051121947436015674780492637301324852436104855911013923278782047116147669246973300452363289515593710004447078952145788637043917787359017039170421750072744627324104032625182321922476039594301461070142800381057258699189923703618358138401317231035310948911200057790345134397916692866303382592966806919025032129344349554598700301970534685222680202929182099323991541028419748452357751300275859021715403867302679291194621256023025103935536186425370231318227545743983502216159271029222121021191224190496004000202181732368526704201923966512821876747018253113170033475600172565915015294817001624925372932483629015231581093668456490142053734099515115501317346031922961082012139191165969079270111058305606478040401076016024936988562010514108007570473950093261728037660010300819331769763301310007106529728909996070065428753092782388300625425086807995320005108650259364558270044200948323630144800414551080553998617003446206165291818630031194285980371184000227429099736979417002529692910342366010028402022263680483700210682840810911151001,
  573300797398032570621456862672487494706036401238966954480059894024555892053600582157686495235757605651156183046456823055119107537350244030532722494402201472105261070474750816030051134392908274634890492900282684093019304861355711826229600047127187769145685820452582433666884150004451335360694566981043998641671024153260421900210481083309204035348971172272534039642553206140607090381140675965553695403619764629139345265035334063000487574130345504381055054740403388357214200723250032138078724601300830302099153300672173202931021144342166299028445258358188762350276201979200263180202683755426719933012025109555827555760040231386583181433154102216961419653075959021200294489560788700202280417271832565601924998008959381866018263453645205672810172665151809527959801625835272713171142015239534389904700620142119845930728678001317867251084663424012143076837430205510111085604843847391101077816610265483133010525208909468319400093325377031284942300819669170496823000007108171701641215610065501487307842343300625715242275407730005109678374990730830044232701196405298600414634207619007408003447966029122040880031197008669013624300227449975901289961002529401999756436430028388942150432153500210660081074599857001,
  643848611737001450621632667087716835506040707374066039559059997664160192940790582402710101274738605656844621999316295055132071415646839620533012416690755644205267430742166570806051148074995778794510493188780217548198804867315998727113193047139247641352179950452821311584650818104455965200273804505043108640284880086550412062827446480082504038292893017596528039694593871381736290381230452508975888903621275130286509884035358833706260950510345900040105199954403394508409853068651032147379661867413990302235824456429220002932971185511572981028472250596642682400276564096458229520302688459075462272423025115464996947921220231458300124552047002217801232464919545021209770594926801980202383299430575666701926071104841598919018274188435013202730172767955454973627401626775889599654297015247738860302874710142187902117773668001318402671326935428012147059995542584450111113530297707883201079654642134915544010536516985143542960093390078593020605800820011436562070433007109833890093395210065574964306361321300626007753886803685005110712692784929460044264579192791015000414717486053778068003449725193415388520031199723185552519800227470674636223404002529110025903260160028375897526422979000210637417829089822001,
  722885216298719520621829207586061674706045511203079849814059111303692609619490572674894488649176305663150218393258975055146411306961927050533332431761738730805274436291345723478051163113243358966110493505201076959537804873839314224037129047152418746853589790453081647402991624004461000233710382477043118164242609615630412238927537650399204041474150606852673039750710859933080800381327056149125349503622897055816174476035385375338416170670346323088363256758803310107149577244091031157282397825459340302381030768602214402935038624867794178028500807329312596110276946392426421664602693414336599920944025121677113395406000231533534573857222102218680375777909550021219669557458151400202490545884330357101927187363846385581018285331486112120760172874444231631881001627748174463486757015256201727019303040142257954290767398001318952638529551899012151142800488945870111142094468065242701081530785640033893010548035457385758440093455846765297569800820358622010046990007111516473145589430065649188942708870000626302631354998646005111753222009582400044296582097335336300414800914695686069003451483636353223680031202429529098147400227491196792159254002528817002899442810028362888287490263800210614850466886315001,
  811408917431931660622048873601801454106050868897546567366059124143938585926900572977176944883839105670138262769540651055162269553327537700533685582090269864405282150854188568180051179638430696792270493852173030413777104880977335466917958047166800504173614330453365311270939353504466474840376495636043128497769988557950412429592723228679204044911244998991771039811212606476258430381430987868939081903624638328333542891035413809788366796840346775348858893578703310807295479197232031167824265814151830302535282480395462802937230216458035955028531015049999126540277349937472801936602698633994030194448025128206892811726440231612449559549600302219600585048389524021230009097369173310202602329856354785101928348403731711125018296897199105050830172984740004989633101628753104873794337015264930398812861880142330055297951620501319517505953921597012155327453665557290111171310064914621901083445715515855861010559767588147351830093522695727438145200820710781283238445007113219630490353630065724166078252157600626599884364923734005112799971784513000044328709691820254500414884492382528144003453241336267494640031205127699024951200227511543216964272002528522944730354870028349914329433240400210592378385502643001,
  910532710315755690622294323418350126706056842816473349711059138430783175560400573312804471676582505677880776735839529055179802837829968990534075209567696138905290644285841655498051197793597948112250494232564088786987704888786344293489692047182500960351130270453674331326471076804472426224715490687043139707527194161940412635988905828930904048624070065696674039876430059853866550381542784076517582103626507412603855189035444267011498200260347258761088155953103311554090160170884031179044815155850500302699118968820929202939553084740873390028562964801344828860277775855851635983802610413144654617932024135069725951272290231695215223116575802220563667552091822021240807628619532970202718830964980262801929555898371535688018308900442002030720173098968324184527301629791685767224775015273932475298955340142404259230641890901320097634376997416012159616198331890100111201190011040031301085400116241925798010571716678862979310093590639796374358000821067969216306456007114943542630975060065799900581195677800626899522573267314005113852951086920570044360961755283728400414968217952572365003454998271640449750031207817694968629800227531714755976735002528227865251275490028336975548021301200210570000987409987001,
  102149714334553410612568513689063149406063502171153235068059154323300369371140573685365605667843305686457188749552964055199183590858062110534504984162295344105299993136553096696051217735162234139990494649503825395424504897327625186315793047199637516692088740454010906620271464204478894640825815731043151865485496399060412859372208635223604052634013618674567039946718266214402480381663019015197212903628513351200244690035476885539019275610347775388141175818203312350517891205435031190985936716648750302873110329469698902942014743897351470028596752401705534960278225328269395190402610992073572911000024142281707499422880231782009107848427202221571505156309620021252084284128318710202840235441612193301930811579541981048018321356564040150420173217258522556129701630864950132610990015283215751286748820142480621448604488101320693392227146459012164011320268102200111231747444839714601087394682147218169010583886070769866060093659693427363699000821430241036765612007116688390878659130065876397326420734800627201555608118981005114912168751370200044393338064041723100415052090244607760003456754421104343250031210499516823245300227551712251991125002527931778188522600028324071839002093700210547717679987817001,
  114568459059396700612874732119598345706070923759615481793059171997628070494670574098825422691214005695955075926749394055220601530458388630534978935246339537405211028127539691128050239634132806357340495106406530369608904810666789655524660046218337713618487930454377421062025281704485923634296429319043165049336231993410413101095715986993304056964065607993757039102245805922745500371792307331105614003630665802399513213035511813020923009800348327424246835666703313199745902359140031203691995239887470303057859043172254502944623118096057883028632478682713883370278699594565759722902611601657502857966024149859666335383680231873016460405517902222626057191201588021263858941832213490202966736355529583501932117238759097231018334281409870427180173339743820634903601631973959710622136015292788221201004000142559198605866656201321305155722000909012168515148440400080111262995723177580201089430117515688552010596279145228900800093729871214702661900821797652365644041007118454357349671260065953661195324734000627505993068616596005115977633469791110044425838391710268000415136108097993492003458509763441135140031213173164738353500227571536545243313002527634697140578960028311203098109371000210525527875474867001,
  128463508265302190613216633641862845006079192777814557898059191648752622046700574557564035405677405610647097814968717054244265349225303150535501485830400566405212160057043159076050263677433340473710495606996352712877304811687977804648648046238740079267817180454776458467393437204493560302572458917043179342930176440130413362616699522621104061638933866829377039110405786432147620371931306808064886803632975080461485888035549206801862137590348917202757643123703314105135109245753031217209968799911550303254001728553303202947386562756652388028670249738009165280279199956514562475902612243438007780668024157821197011670830231968430543824708302223729363423484028021276152251613492950203098533845674562601933474729169555226018347691334120507900173466561431619948201633119805708678820015302658083589853200142640048676965818701321933309008309793012173130055674331810111294948424260749701091507136692467600010608899324046492970093801187892437909000822170259218127070007120241624962432990066031697075660175600627812844524595717005117049353791483400044458462509227506900415220270352707403003460264277582183010031215838639116152400227591188473396144002527336635579205640028298369221070764400210503430990920690001,
  144006386179982350613598280443138230806088403715368815799059213492475159907360575066418923543077905611811129132490438054270404561272114760536077489966892717805213405163024758983050290069340516641970496155334595347783904812804229679113105046260995046850304310455210818789590836404410185557522126281042194836749491850310413645504363554554104066685167908662922039119195562432924630372080721280298777603635452198435431045035589234531846138090349547204599306001403315070251439514791031231589595739716910303462210984672196902950313886858293483028710177183627368910279727780749705035402612919030029293919024166184692495710380232068452962366173402224883547135865066021288985663124332320203235835359628446601934885967495629723018361603216341988370173597852669397821801634303609531415745015312833745719896430142723230983643731901322578244303813292012177858459336073890111327619350543348301093626464190699337010621750069797189990093873658335075082500822548118004184459007122050377434574290066110509861373518100628122119516241748005118127338123133080044491210184875754800415304575849394086003462017942607925290031218495940608653800227610668871525548002527037606850548420028285570103615325100210481426448137764001,
  161388084465147060614024186250856269406098661344433875931059237767577827925060575630731468032414005613099324727481491054299271524045439580536712273607753014305214774461228012638050319033048801214760496755849341755773904814024143573370117046285265946151100330455683535625655909104411086451556665307042211628414578578810413951448145592967804072131291315538392039128662085438424620372241303734024699803638108913645271209035632074813770934030341022006721079211303216098877791197348031246883529473674900303683197328132391502953414376341426575028752378430565702220271028450182127252002513630125180717004024174969378220566060232173293998614481102226090818315673582021302381454534607450203378855899975547401936352936035863658018376034476351297770173733763059155318901635526523526976647015323323828259991450142808806221991338501323240362041160028012182702822021765550111361022531656598301095788834799020503010634834886147033190093947297558285206000822931285529180628007123880799279941160066190104452443785900628433827553744926005119211594728835770044524081184303572700415389023429412546003463770737747560940031221145070114871400227629978572107080002526737624176235320028272805641480950000210459513673654161001,
  180821219443686380614499365314020764806011008181114437672058264738209633767950576256398095230469005614524598843313729054331143651066557640537411679226008590005216280010372014842050350812372164256000497413367607154870704815357072742609577046311730074972224530456197895094112408404412064664526337596042229823228318747590414282266610323530204078007943290562367039138855683439692150372413859609672362703640957776014016170035677917889903467820341093859400201965503217195026656453271031263147501554918070303917711229245005002956697818653518424028796976970057164920271087162538727892902514378495179230620024184195347493439320232283172963261259002227353476956239100021316362762231142390203527818278261156501937877684722840531018391003089973289740173874442450640296901636789731749433260015334137170055156200142896836490050351801323920071013888920012187665652254954300111395172227365329301097994993689680800010648157318177641800094022120719608598600823319818994468287007125733075805559940066270485754721046300628747978116957909005120302131730128180044557075270547823800415473611934883195003465522642378717220031223786028778036200227649118405002886002526436700654463670028260075730421624600210437692098666740001,
  202542422588807660615029386566783519406012279383998793711058294696513627777610576949926475652725805616101174626309710054366325833120014590538182114537926643105217935008135026534050385673594351236920498133150222608972704816813189693566128046340579856746409590456757456187799593704413126629349536355042249534760370406710414639916977884160804084348029984520817039149830294795377370372599250317168519003644012179397014138035726966369559693120341170576435775042403218362953445940995031280440493426127900304166545252040749102960174528491511856028844102672112727540271149073154668469902515165995422234937024193883598312237510232398318558010154802228673916474682809021330953611497084110203682953376754985701939462333239518805018406527605196842970174020045134125274701638094450737621263015345282832991982540142987385315877473301324617788524496455012192749505192204300111430082930550986301010024569652730239009661720952711004100094098143119156285700823713775997965122007127607393108557880066351658679764719400629064580655056228005121398957106028990044590192204055755900415558340208734521003467273636027117690031226418817982822600227668089197449102002526134849261081710028247380266214508800210415961158994887001,
  226814988872887390615620433508570621106013694006249464479058327965519169654110577718497263249659205617844713313262332054405153086970730720539030605691664247205219753895716695937050423907480282197790498920929677110037604818403555779917900046372024091024267320457366072713223870104414279297260034231042270885474353050980415026505329988006104091186886245445837039161643717702705640372798396977465409603647286416103294818035779436000337193670341252474421775898503219607170550801364031298824917292566020304430536303143769602963855374796070098028893892097911605020271214347831954748102515994568713564374024204056071642230720232518969252059012202230054627249888309021346178948200885890203844500418236780201941109073195617887018422627158751974050174170729959129667601639441930310692719015356770106957006620143080517686077275101325333940534610585012197956983336927820111465769370221195401010254170957827461009675529418634958700094175380200308795900824113214534713431007129503938073039670066433628144681671100629383644586201316005122502078693086060044623431742707048400415643207094749106003469023698366235160031229043439352602400227686891774043692002525832082850657000028234719144666913200210394320295034790001,
  253931810101763800616279370388833116506015267848274235786058364902325324591840578570031906713839605619772455826831961054447993452386663690539964855320012109705221752471722858400050465831462182294790499782951160604971204820140196525884046046406289304039453010458027916935892695304415530178205051679042294007400959087840415444297540312688904098562448481291798039174357876245935910373012284404269846803650795734794473645035835556485392530850341339889726492411303220932462181097511031318366806577139740304710567994748921002967751809055057530028946488826643888540271283160528039380102516866249145419774024214735691206588510232645373672628556402231498200284531833021362064671525170170204012707244026030201942820170365576511018439321493118144180174326660455957439701640833454380687569015368608514889477570143176300074809852901326068961817292847012203290737261497650111502246514546009901010488380982078579009689586387229351570094253847550412322200824518192997422859007131422898366920920066516399071964229800629705179297206311005123611504185433100044656793641835884400415728211437609158003470772809216946090031231659894746715300227705526956734686002525528414157540380028222092261623056800210372768951714237001,
  284218623141278280617013815343424293506017018409340174210058405901603919442600579513267113873717105621903377937617266054495251160086186340531099330588916370305123948016179407973050511792015160142120491072601707025277504722036183134332258046443621207096306520458747505059769763004416887384285483704042319042860232481670415895730978631421304010651543936974251038188039104079811650373241965340753612603654556401961438521035895572349389127130341433179675454172803222343900021494379031339136016439241210305007573127182181502971875894976184633028100204379743450550261355693735113412402517783166142092313024225946404846424180232777791010021808002233007330995165902021378637667766569300204187830600483401701944597966989640987018456630973973652850174488004960108001401642270341782433287015380807817930011110143274800473279421801326823296111490554012208753466337699740111539529573920908901010727278505548883009703895572492863890094333560901472271900824928770176996243007133364462438719900066599976389328051800630029194143204815005124727241134854310044690277654253006800415813352082941733003472520948547172810031234268186257761100227723995564808892002525223855796919380028209499512970738800210351306578447914001,
  318037606001537650617832221194278406006018965065738504562058451399453509515490571055783660428711705524258360256835860054547370095229665730531212520881264821505126359425549358955050562167238150680630491175753526299125604724105720670842629046484286271103104000459529724678273091404418359676459329271042346145236475877580416383427041408319004011508956519567498038202758446870098940373488564966895229803658585767190364652035959743855884004530341532723801989044203223846859746988865031361206434861945430305322536296771393802976240339591313576028106071566700297200261432138876008577802518747548671770627024237713227507828530232916491437713482402234584823134464124021395925845238442120204370136434216580601946444884139669349018474576608096158120174654936739618894501643753947121081718015393378020666584790143376088419709919901327597396278659739012214347919475579810111577634004056612401010970943401679759009718460731470468140094414536130843983700825345005263038141007135328819514305480066684365029549856500630355698447322188005125849296950855970044723883530267750400415898627877363157003474268096471522700031236868316208910100227742298414880913002524918420265862790028196940794647833400210329932629093236001,
  355791358107868980618743964695034866206021129267163008302058501877638478978230571171436084409591205526860374437964301054604837583246905680531337069983988516605129007359700344134050617369657434595310491288557135988470204726364243452930791046528573426194604250451037986434417197704319956514744846139042375479809482045840416910204565033934504012433172664617320038218591984681755410373753285694022490003662902332441552221035102834797907188330331638925169090238203225447038443632503031384656204836136500305656496635013876102980858525857610823028112267118374015280261512696717392151002519761729632952477024250062285915351140233061756547984647502236233592849858626021413958170309267780204559900196229486201948363424151279130018493180061724616360174827634125400140401645285661637602168015406329376479398860143480235029813962801328391724461581363012220076895870743960111616575509095816101011219456648481450009733285664581524780094496789261920735700825766957844346448007137316159593603430066769569930305067700630684701500349732005126977678900747350044757611017710102900415984037668523253003476014233250920270031239460287151237000227760436320882667002524612119944358050028184416002648659000210308646561906668001,
  397927304784997240619759445083105100606023534753115731508058557868250744755740571299454552146087905529734687090139431054668188527149923130531474088127248968305131914401848834699050677849271343292440491411890543182260804728828518214180385046576795896052543690451130364541636061404321688112176468155042407224646035175340417479094181544908904013429224394529582038235621175577622600374037412264094666303667525825577155388035110167943296271080331752211766469829303227150472981410910031409567958195070290306010550685296218902985744546823511757028118808557891066410261597577800962045402520828150422213879024263020864993358600233213879803633767102237956672882920259021432764704610344500204757407155259105601950356173123996010018512463679393078940175006280644620851801646866914092549069015419672392986104550143587313027761332701329206752245391870012225943245760168470111656370044756892201011472900339788450009748374215948478120094580336464818844900826194687909386511007139326673447259660066855596034005332800631016212560421578005128112394109727540044791459861952708400416069580305148844003477759339292232930031242044101861068800227778410094053227002524304967096338310028171925033030204300210287447839500548001,
  444942570045262920611089019288407570405926207791329629933058619958835080489660571441128959093853905532909083041499362054738009928039880040531624791160876371805135105232592807908050744096856265437460491546709342208134904731516755656592728046629293177245595160451230725635284992804323565492784152554042441571555893576960418093353680572313604014502509726632307038253933221767183780374342317172288488003672477278387140412035118005176123473080331873037986875145603228963559388779713031436029061679056040306385855423703556502990913241430374148028125714297571837900261687002893377013002521949365690334035024276617456098793160233373167006312261902239757216913963063021452376643447373370204962952720550675801952425803491103288018532450503247052130175191065157210089101648499171668432645015433417837588956350143697396777653486101330042960820850954012231949871186582630111697033821504709501011731357696577839009763730273726162090094665194057059968900826628255846748589007141360552613264140066942448287636017700631350240852694542005129253449560982320044825429805932897000416155254637086921003479503395147891540031244619763337359100227796220542929087002523996973870704330028159467781918208800210266335928800395001,
  497389366237638430611214899000797994705929177440390182230058688798022949764270571597880379148105105536414109737835880054814945823293924440531790510326802676305138606819236895179050816647555695696330491694053368916832104734448731051218410046686433174673873040451339738963146473104325600553885627638042478727116748415870418756484445403870604015658818341800587038273621459725903200374669466432532366103677779109376759028035126379849117924640332001886185954108803230893073280789682031464131875837111610306783631430746962702996380232023693705028133003681700195180261781203455684476502523128048294020287024290881807130938180233539936782049215402241638504056476284021472826355451351540205176842774327301701954575076660921112018553164292853248320175382181995534421401650183940891018976015447576743125415090143810562315510285001330900841149867445012238099726771472390111738583307748542701011994913078349739009779357770431669620094751378504250384100827067722445587491007143417989393530560067030131642593586300631686795569030665005130400852095786800044859520590174681000416241059515347260003481246381515505660031247187274799079600227813868473334800002523688152302333180028147044145513124300210245310301002714001,
  555880954021108500611355000227963839105932475838948524638058765101723966273070571771274062589922405540283344721983801054899702679930940380531972702910190207605142448621713795091050896084775818348070491855053908340157304737645914597351886046748614505021454900451458128149272378904327806133001081137042518913772954667580419472249035448000504016904358986374726038294785775791449090375020425706775795403683455211593549992035135327435533672490332139268330176283903232946191395292609031493974027401007250307205166221144064302910216196365090618027140697031235830540261880422133037684102524366994450739743024305844974586028470233714521084548015502243603943506127316021494147423505202720205399394014216915001956806845731289012018574629545513840960175579831107316263601651922768569896601015462160413623789560143926887381775494701331780894133305644012244395820496767120111781035233067221001012263651994570046009795260683274785270094838906420757311800827513148896045225007145499176850436310067118651054522894400632025885867682465005131554608413616320044893731952810723200416326993792144520003482988279237470810031249746639682627200227831354688373982002523378514313084730028134654020095932700210224370431533258001,
  621098231515465640611510892565780169405936138524148922929058849659928713971150571963033688020581405544553688313337632054993055283923489570532172963845970382405146662816513471981050983044413006707910492030941500297826804741131612304460857046816268980996767710451586675471326220404330196079721229969042562371013151311310411024468999206137803918245788719873084038317533048833739130375396866819985248303689531045787365363035144885658461628490332285727737547184403235130514294387897031525658695796795830307651817739105097402910827574522605219027148815690552390060261984913265523697202525669129104428502024321539377626776460233897265716855410902245657079349210098021516374686983499310205630934305905428201959124058279060403018596871517096509430175784218201857824701653717242758647932015477180430165503050144046451454347551901332683630781094997012250841214495268930111824406591461585701012537661116175343009811443034488973750094927794570382212100827964596789656259007147604308803322310067208011483154545900632367520872981286005132714725072265690044928063629604334500416413056320940006003484729069300574020031252297861639260100227848679988420711002523068071712793280028122297302033840100210203515800005793001,
  693797017401246710611684314752115434105940204782145223983058943344181697279420572175056985990340605549265683795955421054109585316976789170522393038364004126905151284540148022258050107821944065449120482223054391002656504744931118218864426046889864290079362640451726226463299269004332785332882537884042609356632229276060411107814994966575003919690244128007447038341977621691633460375800574684129138503696033739213231334035155094627689294430332441840916095593103237454090291063926031559294914489959060308125018026907572302911473979264496291027157382076287670770262094943420954638502527037511510125192024337998854239210720234088530872022026402247801595535553951021539544285343604010205871803046291361001961529759226455504018619916243391773960175995554899636511101655568993734968730015492648656855574720144169335782142008201333609572384663787012257439025849873120111868714644634267901012817028287139259009827908891662873680095018059867030933900828422128119735219007149733579824949510067298217892142034700632711709675028066005133881208487973690044962515353971365300416499245956482678003486468732835589230031254840944532542200227865845171111250002522756836200257700028109973887785847100210182745890181302001,
  774816099239035300611877192453436427805944718033856277965058104711578868757590562409432862769695405554463867629160690054120902763846815760522634835763106268105156352153805748890050118236488494849910482432847682449648704749071878879249994046969906882496930760451877694867505983904335590003427692075042660148083469127690411197729313935296503921245374627934465038368241803170526880376233454655756737803610299219040404363034165996984528979160332608219505367923803239925440663918046031594997887892770310308626277074888850702912157327393816322027166419728395638030262210791950506919502528475341045862304024355258719551645360234288691693392830302250041321021053918021563693703107613430206122351537424206601964027093786163407018643790562009377030176214058885339156401657479695001086982015508577246902969790144295623419192500101334559250691721561012264192427401651440111913976925296965001013101842536100815009844662368072329560095109719375380837800828885805281747667007151887185237919710067389275248899091300633058461329387534005135054064935558270044997086857002189000416585561554850062003488207251116872920031257375892435817800227882851031336132002522444819364217830028097683673908184800210162060189927656001,
  865086125411491380612091657875537863705949726259411309904058116203482872759420562668460164403975105560197152417728983054133359941625618040522900444411781556505161907530983626330050129630322155448140482661903235390505104753583670951701118046105694508423234950442042067961457709504338627463355394233042715043927056969830411294712837777127903922919378000537368038396456402502214790376697540353189951703611043718025815854034177638055057520370332785512326429278603242553586225888323031632889324596175930309157186861343222402912879635655232077027175953363493548020262332751568125944802529985963260437695024373355826393014440234498138855184950402252380235085123671021588861816275428940206382943371514684001966619310487116966018668522134825618800176439954064402753701659451064304830431015524978648812416760144425399259296531701335533208083409723012271104648566833990111960211240505151801013392194088053660009861707623012888400095202790311544585900829355691073662745007154065321111051400067481188524436795300633407784856784490005136233300548555560045031777867483552100416672001973488258003489944605561949860031259902709629699300227899698361232673002522132032684326370028085426557059641200210141458191179760001,
  965639426920318300612330071380728280105955282465065203895058128927004759498870562954668233920158705566519245621184104054147068701088757690523192148081747760705167996370033784102050142093022773352100482911940386013209904758498793066357919046115157245201287840442220412287023710204341916441191194222042774365381598496170411399303364003049803924721038292869425038426761298281796960377195001960841273403611840148980600315034190066012234024380332974407546150616003245348075316140100031673097787723929960309719425591186385502913643025685490210027186008930601192360262461128954648546702531572876165997631024392328628170409090234717279164031208202254822472828530474021615088940210422850206653954827312827401969309764282913676018694139470993865610176673470723131434301661484864681705248015541865612689392120144558750071213095801336531997753845393012278178976162767770112007435675020416501013688174376096741009879048862132792720095297290043730801800829831848696289006007156268184255719640067573962693200849200633759689242803734005137418921319369040045066588111920491900416758566071251864003491680777731096260031262421400599574900227916387950177708002521818487532111210028073202434006748800210120939389900109001,
  107762086386016880602595045311554613405961445196723131400058143010971665703160563270839428404527005573489107244979324054162151582724714060523512443729218317805174668533717658722050155722132714716700483184827541086188404763852272954438478046125443138846644600442413879811220947004345477124440573533042838457985688431320411512078232166690903926659766242710677038459306044016087620377728155049744784403612692002503983982034203332047386739040333175634961853259103248319013287587595031715759063243449000301031476214263806002814449729196062245027196613669373086110262596245387630526202533239736784670691024412217244148218850234946536182187686102257372330857218522021642416879040170620206935775278156020401972101919744890068018720671950530603060176914845692459707701663582905518346098015559251196659911010144695764534418617501337556183892079321012285418755242890270112055668594700392801013989876053245521009896690337766420190095393236092901379700830314341753592141007158495972222154540067667602732908755600634114183437592047005138610933099423660045101517314558147800416845252708443175003493415749326917180031264931970033136500227932920584780745002521504195171930070028061011201628882900210100503286039837001,
  120229980081491570602889470240581220305968279104606695003058158597354882322660563620033777739394505581171450042195334054178742810930178990523864060848538324105181978418032003591050170623846756151490483482594721313543904769682091066522454046136621703694967590442623714550038492404349331269516916687042907693377057985590411633657130140416303928745642386539715038494250512544631520378299469945048718103613602994921192899034217490551586085250333389968412689049603251477093566037397031761016547106385550301094506073158082902815302093398240411027207796170928421850262738437397903767202534990367958819028024433063527214024900235186350873125647202260034273157891823021670888976615877750207228807611996909101974999354341906672018748149848489703900177164322515433864201665747043637708192015577148773406855740144836533275428248601338606341866491881012292827389940790980112104928649916427201014297393004304125009914636349268172110095490646133425500400830803234252995692007160748883295702140067762113624387110200634471276355563761005139809341599328970045136565197403603700416932060746850969003495149502193920070031267434422817929200227949297048877428002521189166761917910028048852756923206800210080149383500150001,
  134108332575675620603216543887008568205975855564022717004058175842577177683880564005615983178587705589637286064667194054196989378118412790524249982533167874205189985352754904475050186913757483802900483807447128004683504776029421941078158046148768147696393640442851259688905859404353502319670482066042982471197317450520411764705092354434903930989463022113185038531765581728093260378911581672968134803614577082302849245034232599307447999190333618228324454949103254833630360591078031809021652131930280301161228580367387602816202586681380134027219586441387705230262888057453925009902536828765434803337024454911134219117070235437182270249272102262812937171283199021700550169075193830207533468663727679301978005761808936688018776604359737751490177422151618483853501667979184406372191015595572036824521200144981148904689143701339683058411648787012300408344323402520112155234778998989501014610820357797589009932891243346780590095589537993730216500831298590605663863007163027116493045410067857500351408838900634830976875108674005141014152389047630045171731480247686600417018989049788927003496882018318082170031269928764038916500227965518123523374002520873413354925110028036726997009534200210059877190094242001,
  149553083836200690603579802964193237905984253357664279726058194918946790237900564431284971769820505598964523739249989054217052226641318500524673468390249646205198754036358410960050204717663002003400484161779813917436404782938894686661879046161963824258624690443097965235767732704358015531480162054042106322113083712220401905935702636046203933402789207327876038572033863940160130379567300521543327803615618475319024720034248719691940297550333861284394877842303258400593108775219031859934235587768550301231850716474161302817153804555429681027232015968229283210263045474675017960202538759105230504684024477805598984412800235699508169503667902265713140069207114021731447039054320800207850189660125232301981124955606601885018806067624343557120177688590486559853401670281282864342197015614535008793129280145129706054052755601340786931817640009012308165143253386080112206606211710915401014930254497964269009951459414400025390095689929656947661600831800475626766856007165330871558387660067953767900530548400635193293838303082005142225370898072460045207015880686709500417106036482133463003498613279826415170031272414998976067000227981584586988250002520556945899449610028024633819135065800210039686217509594001,
  166737014608206820603983158247596262105993559425385101729058216016230038921820564901106242017101605510923862001037930053239107537099779640525138079467146613605110835500814840130049224172442000528930484548193545314525904790458874042428985046176296718795726010443365396245238706304362898110507813720042115040508686869460402058114515085127103935997998988126954038615250482048309790371026962325149508003516731654975481412034265916890794694900334120058426757348503262190642743861003031913923048467209850301306590536041357402818158475869346445027245117789583378460263211075574650827602540785751297199060024501794408065461170235973825846660365802268739885241660813021763627871596428870208179416677748820101984360872473838859018836572753595204710177963903842208235801672655344877717499015634052046075044560145282301414832994901341918572121924103012316101373260763000112259062472748518601015255793076808081009970345304849830550095791839261558678200832308954535728465007167660348959597090068050921260929893800635558236050623588005143443002415608850045242418114144211700417193201910361137003500343268986521910031274893133101956200227997497214750207002520239775240559090028012573120679020200210019575981270733001]

/-- Rows from 500 on. -/
def besselRows5 : List Nat := [
  185851521992714990604430933180543385305910386968794670793057239343375595482450565419547257252578705512055329248660265053263348132346518980525647705361464168905111886516072309408049245427001625720120484969511948911857304798641763590080494046191861972559647320443655241654992307304368179356755416531042124451953460357300402222062707269902203938788343059956660038661623894726533070371102174499552040803517921389282215709034284260125158560290334395527316724044103266217169876019204031971166207506605110301385677731646980702819219469317478980027258926566585865340263385264834933728602542913263486750853024526927079373294550236260652800091622302271898369000417802021797142711804687170208521611114130104701987717576075931747018868153856658261320178248363828663589101675103428314630522015654137847334486360145439033776457418001343078601303702357012324220683423854820112312623385270685801015587535026210391009989553405477750500095895285102033055800832824092956456261007170015749884314340068148965424243019900635925812280663839005144667052090765640045277937893892670900417280484202585667003502071968206153820031277363172079395100228013256779490642002519921912120808460028000544799157148500299995460007023751002,
  207108577684434250604927906365644200905911528995184721970057265130404657128520565991516166094009505513301129695883580053289985007275553550526206593700251616905113036829609039333049268643304026921510485428800044523028504710754433280657779045208762446516189690443969323778398028304373890820608395751042134609800149576580402398660980925574003941788004079695481038711376774109491620371182707188653234603519192750907133912034303822891153439410334688726207756402503270494334983315112031103185169103450450291469354225183955702820339800246487273027273478658918726470263568466113563295602545146405835463197024553255243750939610236560527519868486002275193987505727718021832043424289334550208877250172602477401991199260750182839018900846067888961500178542250197033855301677627644244839729015674807460282485010145600004065718270501344267653480843885012332526786259575190112367309074455918601015925580570100967009100908825576078620086000285629466038700833345956917553831007172397276236022050068247905384402101300636296031259854066005145897524932750860045313574931075116300417367882228594325003503799360032759600031279825121759068000228028864051089297002519603367181146610027988548752226162800299795957988929998002,
  230742887192407460605479358323028783105912793690300559224057293630482558261260566622404154261423105514672527612459366053319248995347312510526819382189397810005114295572905247280049293997477908276210485929384271856623704711722806977149509045227109328224696040444309608500472392304380066469994346714042145571374584819140402588853726292044803945012159858132228038764746938973550660371268923445762798503520551135870548084034324683213042037650335000751814005386503275037110713122455031109617785979367600291557874787671929202821522637775892328027288812203669103330263761122884487387902547490155176319611024580832729608689860236874010284043387702278632343922930020021868383754459571310209246827361125574401994810255351552100018934685574816514220178845850497657561801680230158163380271015696076288948923340145765315386630680901345486375109386478012341023458623144440112423139971087484701016270031236688284009102895444420756140086106859452211360900833874612852515680007174805130630078250068347746137472961700636668901682183713005147134425811076660045349328934726820200417455394859884148003505525427153032460031282278988177199500228044319796619557002519284150961817280027976584877688021300299597249026588244002,
  257014270158070310606091122932973841005914193919780056346057325122188775698940567318131759075083505516181868585822588053351392583723553780527491133450776732205115672694175500727049321681021909008980486474874128133732404712775956147623098045247022784891827220444678216227464443604386742869535228401042157398261537374320402793653467237084803948477050676970050038821988346815638020371361210185896681003522002283339180793034346923910741619010335332765926898756303279861326399291618031116435400392854790291651507688881019602822771312245878006027304967197643916220263963699313608609702549949710091747799024609715650724467000237201683983002988502282219255815967058021906219391712264690209630853005468063701998555027200632997018969709646808850680179159460275712757001682913191238672464015717960101083449770145935073060904962401346735425185634844012349714542617264620112480136815166600601016620989870748049009104915660869478570086215025336510421000834410127599903802007177239516389710260068448492681492746700637044432203926470005148377759455767720045385199611796821800417543020969697299003507250152392450980031284724777553227600228059624780344090002518964273903252460027964653073494175300299399328425081757002,
  286210283847111970606769644020292976905915743866075493394057359912003823009670568085199507345353605517842680591559565053386691889887240660528227372882562746005117179029360994447049351902107165722070487069185542007411704713921090382516843045268632665995497080445077433643869071204393959372523103342042170156610419990100403014145605383090303952200050989056648038883372148397013240371459979693927320103523552296581528766034370632882459953750335685999111941932003284983714905405313031123660091738467870291750535378123719002824089323006527465027321985583282357860264176681170894077702552530500219458373024639962497319100810237544154972804165602285960762784985290021945608034570857530201002985477712139101810243818613639444017100595666443651180169483383271159419301685679021585502699015740475035687155230146109384669040534101348015475450881786012358603946510831280112538320659553875501016978560645970740009106969943680405580086324802207117968500834952568403507457007179700637541976370068550150016307803100637422631443368962005149627530457579690045421186667169512500417630759433056489003508973518714818820031287162496287510400228074779763710873002518643746346957590027952753237749635200299202191526062647002,
  318649114039499290607522037581356063305917459159901872443057398337033206716010568930743269279878805519669784255599208053425448813705207860529034129797415454105118826379113620481049384886986980317540487716566118719972104715166014357178773045292079259116097790445509726334362981304310175832660481059041183917462158936600403251493482590255403956199745776090041038949187808525690090371565671224233693503525207665149749434034395903403269819130336061754606095506203290421961909638648031131315150102265590291855255197628756102825480346563247631027339911338313983760264400576780307591002555238195924329497024671634230519733730237902053958432105702289863134355396976021986609457829091850201044437823632408701810646448867615156017104346614954947790169817931623097038201688529985563285399015763637610676814510146288360092048316101349327210598772738012367695645667214770112597712873638874501017342849077366795009109058766615890480086436209147923814200835502002912484266007182188698813687430068652723143411596100637803507980541532005150883743268221400045457289803686134300417718609126799443003510695509221797530031289592150959038700228089785505349352002518322578536390060027940885268717012800299005833707403443002,
  354682759893711980608356160202122848905919357024474573819057440767990442344330569862594755696890905521679413120829903053467993380062616490529917982114049681805120627592262417656049420881522130183020488421622401580303104716519175459652743045317514102869864650445977752332107309404311018529411986191041198757098650353580403506943782352989103960496011854521882038101974429706977620361678752697169471203526975288356728157034422834440480079560336461412426097068403296194757752195482031139425139580757510291965980129971617102826948245093739160027358790569315846040264635918009032471702558078718349759672024704794380328269920238276036907948158102293932878125989359021102928558175565850191087498739058644101811063884228529490017108227879608217680161016342607862172501591468479100030232015787464730683622350146472111553809222501350671328485339678012376993683482182160112658335147037982001017713962033729904009111182608476213250086549265402570864600836058499181484137007184703905627294750068756217065782786900638187070356952515005152146402200584660045493508722166241100417806568929613282003512416107152438400031292013748323173200228104642761066979002518000780617828840027929049064820420400298810250382852571002,
  394700541935071160609280684267479287705921456433748376463057487612463113788200561088934762346397505423889344800640780053514686288464485250521088610490016551905022596656291911137049460152831016021810489189349305723513604717989715110845738045345100861114405770446484376659069139904311928928809847735041214757416304199580403781832291940767803965110104437772976038109537135442422960361799722497962732503528862500120645834034451530986705264760336886433698602967303210232185197195621030148015964749600160292083039581098893102828497075352486003027378671609327955270264883261297505758302561058249862358138024739509147215424330238666785998523110502298176748183865787021107370054341718500191132226526911302201811496630975934693017112243650160205190161052019620626752101594496959042438015015811973694988286690146660753664075918001352048540341726118012386502172331504970112720209493320556901018092007750157625009113341953133337530086663990375069206700836622125670755194007187246464096741720068860636787723445800638573327075324898005153415511428980440045529843121429125000417894637722068274003514135295882708290031294427295309399100228119352283845996002517678362641239560027917244524649290300298615437001693729002,
  439132965134779350601030518061885342505823778285981668018057539318488119330500561202042969493528105426319043977509097053565921687368802670521194632308895032105024748795403772004049502991074550728840481002516189178637704619587524054046639045375016262890462770447032686928501677404312912302499333458041232006325275398310404077590048465957203970064749281286883038117642083589677040361929111383972064103530877095253222981034482104411581731020337338365223558984203210882411066491313030157114940430597440292206780200549249402830131097979386925027399605119692463350265143188731839646302564183244904318032024775847507464792540239075010595381238702210260175379422278020111992077017850140191178681451353056001811945211372097744017116398239961744680161088858061411861501597617944532557879015837182205594431660146854403462125413701353459570989628120012396225294528314510112783358253763447001018477095840629451009115537289564691190086780403630406382500837192951246232022007189816581023280420068965987314697456000638962286599336485005154691074989381120045566292698315174800417982814386651219003515853058925013450031296832799019100700228133914823840502002517355334561129530027905471546962097900298421389048408803002,
  488455972127875690601144020937898139005826345594071492207057596378464596366420561326618184149574605428989818286656641053622130192495657080521310716871750773805027100576778351988049549711386453333040481093492965964409804621323301910841126045407451112877867720447626010084503662804313974319528946735041250598176083922420404395749893491441503975384240756389486038126326813973496650362067484506551125203533027357271859765034514672833126771490337818844282765261103211572357680314532030166750864912158960292337566740541469702831854787229816154027421644196288219850265416309160262091202567460441268294505024813881322395225930239501448264710007402210721516837317525020116801505544047440191226925798533685501812410164123465065017120696089266075570161126892717267974701510083401841144032014863108375442215270147053180461069761801354905159059473769012406167303290250440112847804101133886701018869337310641584009117769111886966650086898524895153634300837771045179606047007192414463891253980069072273653169030900639353957353362391005155973096779669140045602857147707247000418071097807798406003517569379927719510031299230266723350200228148331128373758002517031706237396570027893730030689995200298228102042344723002,
  543195624989410090601269741973026750105829183694237818492057659333435570894560561463794412943607605431924988213506189053683782169956506580521437794306377159105029670025701231286049600655960429283140481192501355577135704623208621321952020045442611377478978220448267930358675469304315121075321214924041270634215434016150404737953462306987103981094546219494386038135631372378721300362215443554118785603535322087820147648034549361509787778690338329603706184649503212304353365956193030176954096785285750292475782955670913102833672841144097610027444844480338914050265703259355267512702570896871810114071024853685451593887040239946865821621746802211202453875207225020121805463667730180191277023939049658301812892044854164311017125141768616314600161166159324259416901510414782865022929014889770736764135600147257206692832497201356386057211365551012416332523716464970112913570043500829101019268844569898305009120037919389941470087018374058068205900838356477148378146007195040320863843310069179500810441421200639748347722220768005157261580559891350045639536162551915800418159486871928093003519284242674666450031301619705860718400228162601941935810002516707487436171150027882019874940356100298035571537383903002,
  603933257674757630601408965950693279805832320474779997149057728777772154151630561614814987858022905435150072229708656053751391306776163610521576878408887344205032476750272198405049656196306596056900481300230590217077704625255997014512961045480719352000737000448962308529317844104316359122683273639041292223073157804910405105958635607861103987223417064915861038145598471607550070362373629023394679803537770637785691528034586303254281639610338872477209152858303213080857149038031030187756635564315900292621832545028964302835590192175094341027469264273979729830266004705223228408502574499876615151880024895337870296470540231041206041428476902111703769474196613020127011327583662080191329042392161885401813391426591821649017129739982313739360161206694590729933601510756208980913928014917188249584988380147466606753798282301357903032358808702012426725353774526300112980679428074741201019675731445059559009122344216570314700087139971170691546100838949317235893322007197694360778780080069287673794495808700640145466050921274005158556529952520150045676329433880720800418247980467472524003520997631084683680031304001124035101100228176728006181293002516382687830651070027870340979000232900297843793121618339002,
  671311145261340940601563109554163243305835786626785834617057805364297126620220561781042834071319805438692988496493223053825518493247696160521729073962472765405035542076470348280049716735690455807090481417427347022748604627478960161868245045522014914788667290449713302574404718104317695504995768686041315481282330672940405501647483009421803993800506872529799038156273662485899260362542722626142260403540382940208877118034625638870380300960339449405014287623903213904465763435908030199192206269167530292776140138636655802837612018293364718027494964660774464140266321343063281677802578277115634748227024938919791055399830231089786064537470602112226275900714097020132426734216739700191383049891816183701813908900265979506017134495571968573180161248536221071240601511107958452477521014945380310368004510147681507851143563501359456865895250613012437350265297290560113049155945075946701020090113192544617009124688513165560870087263336447943538800839549635931357879007200376793144026780069396797613830409200640545320644416562005159857948442720040045713236650831353700418336577484909687003522709529211098490031306374529013565800228190710059927574002516057317001928990027858693242339719100297652762417027181002,
  746038740535899790601733734579503002405839615918845174683057889809888028838250561963971676626403405442584274576625635053906776043577638560521895584678194647905038889194409511384049782711768728812860481544900393936275504629892138428274679045566756874573788630441052538981572066304219137791727652739041340533834735255970405927034729629754503910085749708576615037167705515408443090362723449839162918103543169545081138718034667517613856698590331006243977255985103114777921019514098030211296348153577690292939152330162595802839743754590106608027522009631382237270266653900877366990902582236581809573387024984515789841105490231140512773202892202112770815725682908020138059589754208720191439117454511855101814445075219404231017139413520134981070161291722940003831401511470316502624727014974366760809129000147902039849855547001361048353923453617012448211804989774300113119023631631465201020512106511391023009127071324187795480087388490268712485800840157504129838423007203087828133422080069506877277299761600640947919767356664005161165839378620760045750257500668793300418425276816794384003524419921241243290031308739928724216000228204548839153066002515731384439812240027847076564615229600297462475079158020002,
  828899533288571570601922562439260983405843845498006545784057982901603441744310562165238269429393605446857326718060656053995832283457874100522077721809130806005042543316683352524049854599437448296110481683525599806038104632511342118997326045615224417728743830441140339065811718404220694116434086072041367514773988347170406384276778878232703910842823068107121037179945813045418130362916582605708126303546141656136461407034712097678866496820331071375279868903603115704117548074927030224106507771983920293111338757978199702841991105398919012027550466214580463760267003139733361982602586386614697421887024103221393672611210221193475670552244502113338262876450422020143918078434126800191497318449064917601815000579732580203017144498954032027980161336294517379528801511843575468055133014100416789678152100138128335320447548701362678307487725960012459314595446101110113190306875700476701020941829556169017009129493169957653650087515453176440985300840772993132243201007205827676582293120069617917793954223600641353271643846043005162480205971595310045787391668806395100418514077357789096003526128791495959320031311097331254068600228218245076995812002515404899543637910027835490845672710100297272926796811515002,
  920758592938959610602131490079747662905848516219418609722057108550338000986700552386635737303318205451548660404150132053109341653555329610512276913493306486605046531849769512847049932913908883563190481834251336379667704635353656886342151045667718662593697660441235249403482833904222373217404881428041396567828790707830406875681326603525503911654885431704432037193049754869529780363122942196921212803549311169745280802034759546711105112490331140564063675375903116686110938227623030237662136586125450293293193236688693802844360056958240439027580404613858457440267369855183327120402590735914623491204024108210593130623290221248767765191819902113929523722438142020150010671597055430191557728668313493901815576061561691845017149757149352371810161382291793515376901512228034956768277014103480447743231150138360529587378315701364347552809035097012470663336176562500113263030420028390801021379401949950716009131954576138178270087644245879707604000841396174645285739007208596549983036410069729924172879724800641761384457204017005163801051296545040045824638838826922700418602978004694352003527836124429097340031313446744846957100228231799503752368002515077871623077360027823935985550743700297084113291729543002,
  102257086087066860592362607446180977005853673007319260346057119856335196458000552630128129646608105456698194007826957053120032453643451750512494714885263059005050884579537484800049101821403511024930471998104301871097704638437543474293723045724564328527934960441337828467722503504224184481141804899041427847088914281590407403717603888136203912525796948005144037207076174198458120363343402242388319003552690716025642981034810042349146612710331214053197267083003117727126288215273030252004793321243080293485234941367333002846856890637186730027611898349804063490267754878738944184902595293557371797067024113428724301794040221306485699498003102114545538195500666020156346137008129060191620426402813881101816172188490401142017155193534160499100161429756705068591201512624002008595875014106629773443367610138598760778183000901366056931523026096012482262804644842830113337219366129517901021824944797333630009134456073768715260087774889252804230700842027120781430246007211394660480663870069842901423037687900642172266349727486005165128378292189250045861998692503510900418691977656478608003529541904627015520031315788177901446900228245212846876779002514750309898938250027812411884483593000296896030318286794002,
  113539026513367830592618216642383855205859365250275819164057132312184947008230552897866292728150005462349557541392768053131742432122731440512732819140886106305055633871985902476049111110589739000670472176195797960499304641782945018769842045786111527871591570441448677233530914304226137988854600517041461517726705222620407971027288035415903913459679317333600037222087768487673260363578891939370888103556293702292480292034863772795441487730331292099491099548603118830567189112063030267178251290941360293688009646813256102849488196748411769027645024408514045150268159079406306036402510006900943700159023118885725651599600221366729882267564502115187280946009653020162933548456838300191685492516577041001816789648895735198017160813692882345760161478732311462515601513031791258803648014109866938139036490138843169873324006001367807300920971822012494117857315482230113412899178298510001022278580697518740009136998199298817070087907404336309219500842665904058819704007214222220868319270069956854553105303300642585925422457164005166462189761361770045899470909820609200418781075214307846003531246116808074300031318121638968768100228258485830979993002514422223503956040027800918442904149200296708673663185640002,
  126037973703528710592900852945257363105865647233841485673057146032013707090370553192205176839983205468550428660278137053144566261520971940512993069325249040405060814890421974521049121224668196296600472369728494414004804645411402457189823045852737689565342890441568442308367487604228244566177870880041497756767054747730408580436123682227503914460932872851300037238151343649503370363830399450808910003560134358972128560034920937418523812250331374974463432610003120000025162208694030283228610919269620293902091024248723402852260888972533480027679863396267443040268583365282289870502510507214385654967023124591942228026870221429604625863181302115855762535703185020169782295642016620191753010524896106301817429152328402907017166623370388166820161529262821873546601513451725104810863014113194162340573840139093900756769202701369599534193675786012506233430711596330113490095687650406601022740433757442003009139581494622148860088041812337656110500843312597401185785007217079444582761310061007178857131592600543002369734946258005167802488371311890045937055168994835400418870269581574607003532948745822129420031320447136750770200228271619177829270002514093621483580690027789455561446831400296522039145154392002,
  139882221663339980593213307849006969305872578614077889802057161140995890051440553515722704485983305475352898259463065053158607177478184030513277471318759608005066465830389377743049132234886440274910472580003718003825404649346178640270477045924849623777008280441697819285663946604230515836323985988041536753908974050110409234966298499413303915534254735202777037255338073217949440364098975502729382303564227788115815210034981747388055601560331462965146447058903121239289571855541030300204417698557940294128081997972165902855182219419640615027716499700710095970269028685214825465702511031325664367815023130558141262607210221495218287994585102116552030668370761020176902094349727060191823066674316835801818091430107867758017172628476170563570161581393622789272101513884133876077538014116613716680849880139351100267305753901371434520678354646012518614542482936110113568835096189481701023210629604959421009142206507110397920088178134631698034300843967274137741153007219966545699815240061018770848529985900543421607305032275005169149276654011520045974751146495787700418959559663926779003534649776650021870031322764680097888000228284613606347982002513764512796755920027778023140950363100296336122614648786002,
  155213274232577440593558654330174163805880224935703151242057177776396314986460553871240336569061405482813868196154542053173977732367903840513588207802851485205072628173751484446049144218472634187010472808429305077627304653612391780842841045100288573752464550431837556336578879504232964276901028579041578712402104578970409937849620614016803916684658105468522037273723773224527700364385737192266197303568590014652755672034104642634441682430321556374934544034003122552358036519081030318156785831831460294366616164586521702858259794354383730027755021658807608170269496030529449475602511580308384252249023136795528329750150221563683418279495102117277171459470366020184302996931908310191895750024803920501818777235932508820017178835088619598520161635171306148112201514329356007209011014120127922904222710139614918250597343301373313166108522311012531266292484313480113649143980906785401023689295402085074009144873789647183180088316392761267603300844630008003053638007222883738929794570061030461930192529500543843646108611668005170502557006467970046012558517066797700419048944369295829003536349194403063730031325074278007131400228297469832615611002513434906316692290027766621082460525800296150919953556888002,
  172187172865806920593940274542038696705888658198961450694057196088708463164100554261845485220054405490995483883017095053190800613401666990513927653412875513605079346963444866003049157259123015398750473056528059982735404658237158919232447045108731841196891640431988458056334285904235603280639486447041623849981701874810401069254154771566103817917492764989039037293389193698738780364691872018099981703573238040530761748034111521110463425720321655524476929042003123943447361841183030337139527819425800294618359277530595302861501590612197740027795521731833624670269986436824620949402512155281922725012023143315764082889350221635116909732796502118032310745804457020191995403093848860191971152534157319001819487346505209646017185249459396973600161690643698070998201514787738214328818014123739154871994120139885507611993113001375236392866902560012544193863864468190113731049297906514201024176559858281942009147583900661964060088456608437732455600845300873136903003007225831239612890710061042252602713963500544268494079417276005171862331691041470046050476953745621300419138422607924682003538046984322524890031327375939620086700228310188569867820002513104810831633700027755249287232789100295966427074906879002,
  190975954621758490594361890166030476105897957479675994432057216242897115058250554690915934557943805499965604723921901053209209530576357740514298391152746393105086671100534095767049171447527908605420473325946864606886304663249750132521979045117865655277545540432151389582554791104238447220287000820041672399865850193730401150273612079796703819238466854581628037314420327757566140365018642145758410003578189901899870782034118835240653077680321760752616681745803125417005020563207030357209290260573730294884010799752501202864915972735264877027838096687670010990261050098583835800202412757413266785282023150130981586499150221709640155336411902118818615436409383020199990070998730230192049369144733862701820222562174720373017191878017911266160161747859888195699401515259635674770738014127449839584583080131016302437009618801277205140241392044012557402524165403710113814578386561148001024672553243804862009150337404163946250088598803541546175600845979944084119685007228809263714533100061054143366581104700544696159108798985005173228602835769030046088506127885064300419227993292395232003539743131779115040031329669674220938100228322770528496979002512774235045616310027743907656734913500295782639922578391002,
  211769252811232970594827595668562901105810820960734494495056238419754684803940555162146444364106205410979831561021356052229350180256544890514703230173329724305094653665323587552049186881939237782590473618466487567930904668681754266049422045127744832572404860432327281004179658304241511517947048141041724611818897369160401237238185864798003820653670009850989037336908739301990020365367388920882730903583464729502495266034126611569306947370321872417378616587303126977721205300058030378425696152403630295164305527480757502868511710857944392027882847790705736220261104080738884510002413387918918597176023157253804263631770221787379209846756702119637294905843956020208298128697689420192130497872530613501820983707593145348017198727375896263260161806870259624574501515745412210142112014131262458220640120131044762771109997201279220364684099123012570897626432259890113899758973695398201025177407403095393009153134869775981580088743000122794755100846667295794405768007231818027820719010061066134722157032300545126649045506774005174601372434692440046126645709173561000419317655337655407003541437622272462980031331955491234506700228335216416052651002512443187579222290027732596092649454700295599554471016618002,
  234776053913384040595341894734315475405811950990657202607056262817381377687170555679577726473741305412057448296126035052251381290650078150515145225024547724805010335226441612928048203668782709731720473936012145083388704674567257019972231045138428409056823280432517132080739825304244812719155011712041780753285345256000401330569867253817903822169597933702871037360951910394876920365739537644264764203589082812441968505034134878193896401920321990897008347814003128630541481317366030400851493980899320295460015288169075202872297999372543130027929880999631754930261160708139175118102414048066872488449023164697364479212440221868464957001026102120489602431093418020216931085894050300192214639898687708901821771632389915637017205804332094463790161867726519496747301516245440472810796014135179547193325870131073948004390055101281283040073483126012584684610333762240113986619177798995201025691255768228199009155976872768462020088889220401738386700847363003622138128007234857749133313390061078227169665307300545559971695477142005175980642348192380046164895365655666200419407407661045861003543130441430595030031334233400224303100228347526937242452002512111676970325590027721314496876206800295417166724949778002,
  260226625635380970595909740171614394805813196300759304185056289652800173348400556247627999728520205413238235908014773052275475755937803270515627696499783245205011282940575160272048221923318076932150474280664869293283404680943032281893129045149979954702998530432722017293091972204248368572003760808041841110598691612640401430719586410919403823793178491821534037386653609453997810366136602623193118303595065665510147813034143664852172827470322116591065085817503130380680067684491030424552713910984820295771950715816237902876284476407495839027979307173440049090261220103995709381302414739178665856580023172475322779947830221953033282288127102121376836673336765020225900846050577980192301899663469648301822587211862612866017213115877047856490161930481730195804601516760102135869032014139203699223980300131103874705599334301283394157979618924012598769003293307400114075187513268333401026214233372408562009158863994093204490089037486769348720300848067143326154031007237928645465320300061090421209174223800545996134821622174005177366414303327170046203254763752529600419497249182326218003544821575009412500031336503410890602800228359702793933027002511779711674833910027710062771534578800295235472719109551002,
  288374632370045630596536577612355405305814568373216955298056319163718588204980556871127346689801905414531823890538822052301821866359903000516154254200413282505012315290381377328048241770351139027070474654673743811364404687848747658615324045162467910775249630432943091248083109004252198111650647713041905990269995029880401538169127316351303825531799421775647037414124281456390730366560192514418055003510143610026393968033153003013944431170322249921570809891303132233633776442868030449598831395968050296100963106991977702880481244151252703027103124228594614270251282396956858077202415462631506552573023180601887812315730222041225251454580902122300343205856249020235219718848810760192392384962785129001823431347685016420017220669197998109150161995190341204243401517289788086627563014143337564433406800131134559777016224501285554727932609253012613156421630721500114165492894676953301026746476863520362009161796820417325400089187821787841358900848779791069518647007241030935236123720061102717340581086900546435146143621386005178758689894177130046241723568282241800419587178823701015003546511008892163010031338765533068529900228371744685151225002511447300067420650027698840818965888000295054468517954363002,
  319499455810338750597228393358074207605816079806167491497056351610450201371470557555355114090638005415948717357431154052330624642145184120516728820958255856305013439631735881789048263345001411921240475060469070560177104695327185226356459045175965951403385670433181594461088412304256321750558845947041975720361226739110401653433164603888303827393337751594824037443481461416133440367012015974855780303510821830005028106033162925977763941070322391334218586329803134195196640757239030476062938540271550296447946361035303102884898890056459781027108580764916612140251347721334846212902416219860479396957023189091836940769330222133187294920647102123261516089403166020244900433009754350192486207047307047101824304968632755370017228471683898353120162061908221616172001517834898623694876014147583851451005170131166020460196979501287765777694172632012627852571714756840114257564641074907901027288124517724633009164775944157102080089340248191203740800849501023419275176007244164837466702700061115116063596535000546877013337716828005180157470582193050046280301442480167600419677195509845181003548198729088914240031341019776726166400228383653307085532002511114450442253650027687648541735626900294874150215395914002,
  353908740119283830597991766755494603705817744419479937468056387278010045399390558306080619315196405417500374557519433052362107279798601520517355659264415545205014663942219715325048286793529682251710475500676536520362404610342447858943909044190553371122886650433438859541926033004260761374848229185041105065194878223900391777061429939733703829386191029112461037474850212466788400367493887637003243603511543789918922110033173468972777875810322541299642929611303136271475264391658030504021923563496580296813839008031106402889548508960333599027114313014589105240251416217341102820302417012360834565943023197960537588929190222229071398286614802124261799496364893020254956149485420740192583480724255323601825209031326951606017236530930538768280162130692693319777001518395843657695948014151945328541979990131198274341805646501290028353532427788012642863251126357200114351432480316990801027839316253107569009167801963511819660089494788885718138300850230917346176855007247330571774813080061127617877728885100547321744036510628005181562757696550570046318988048019196500419767298167929137003549884721736022910031343266151962672400228395429353087594002510781171013716330027676485842635619200294694513934528560002,
  391941182841179520598833927519397558505819577370295401582056426478399173713150559129607447163004605419199291065533502052396512719940018950518039399864521493905015996872175108503048312274229974386900475978132453916716204611219036741291474044206315500184006620433716317811312297804265540447154634638041113116068285323120391909641015867402203831519310469129174037508363589952725870368007734426929665203512312206653537859033184669266000252750322700314755239446003138468904926294844030533556658728684690297199626328316958902894441726158515073027120334247181423590251488031330799694702417841690360674955023207223969327240720222329035299114398502125302689385115643020265400475030940630192684324461906827901826144520996249880017244854745788228940162201602564861422001518973042915686895014156424824752864580131231339359525790801292343520499902630012658194349832761810114447126553419876901028400193643378327009170875482497602790089651466950480063200850969550224401691007250528358370147690061140223282268522400547769345828765699005182974552434509030046357783045029915400419857485727643523003551568973095603250031345504669006423100228407073513673997002510447469917122490027665352624686136400294515555827361417002,
  433969594687355250599762818458187080605821595279216221343056469553095027979940551003282164490711705321059091207327141052434105346617067300518785072692721706305017447799831563211048339958390788330700476495900152590321404612167847067502260044223344149552564580434015506376783284804270684116421410192041121764844870665560392051798825508036303833802236131511999037544163133010134640368555602243648713003513129959364915082033196566275286306650322868904147486729703140794266475570187030564752197112887910297606342567421802702899590721471094804027126658338757937560251563316056914267502418709471845474713023216898746731245900222433242690174438202126385735225965762020276247476167177760192788860496897743101827112452257636027017253451154954287380162274698166003204701519566926149321114014161025231075589660131265233808054826301294712362714790227012673851851372480100114544677418948147201028970899931615672009173997110981228520089810305637911678600851716999831249164007253758418049464250061152932776272320300548219826259209239005184392855861775190046396686092120730700419947757121223588003553251469554993330031347735338213165500228418586476528219002510113355209425300027654248791137964500294337272074553627002,
  480404253451637050591078716409834702805723816368099669118056516875765649372970551102324414933868905323094627323770092052475172828801174570519598140330096969405019026890816970179048370031330821696470477057287608894440104613194657997122644044241738087653713650434338075698882773304276219335073736146041131054513628456810392204204176997516503836245134249745945037582399385199296130369139663019662464903514000098782072841033209201688295140340323047621567468666003143254704053671767030597697978614180730298035073250495634102810500825434098674026133299798113111980251642230934163340702419617395627169704023227002143035359580222541863429353387602127512541780162114020287511693544026810192897214944385325701828113869916453937017262328406263828390162350041382986121701520177933346824163014165749501630338170131299976345181827601297135983645477119012689841834051187830114644116057429200301029551580044063168009177167464713918390089971328374270453000852473344346819472007257020972191687800061165746858548103600548673192828339064005185817668912871290046435696846397915600420038111283473092003554932197626220500031349958170064189200228429968926502704002509778834869919690027643174245474371200294159658885152250002,
  531696579621905620591191654574835624705726260610495512578056568855227316178980551210908780724894205325322087526578095052520028115622268130511048453418744814104920745162392051980048402693514768623090477665866401420425704614305697429308103044261603551046699490434685797680406087604282174984054386171041141031052492648520392367571572060649103838858836836191228037623232445834514310369762222183502482703514925857020216937033222619587744128050323237051469106279803145857743682287526030632488045605759210298486957600450873702811070769000634073026140273794076301260251724942313165969102420567222239462782023237552114607757960222655073756423244402128684770933428223020299208156714797850193009517911137242401829149849786037977017271494976466750130162427695694511088001520806514948834950014170600654867425290131335585997949668701299615506398367958012706170472148597430114745473875797033801030142380603972313009180387165365109290081013455876015282300753238662353674831007260316242752985600061178666027639139200549129452992232724005187248992391508240046474814963485557800420128547151787904003556611143945462410031352173175164511800228441221545621179002509443916800940420027632128891413060600293982712496333096002,
  588343163771473340591316148359086908605728949895857309284056625938666856378640551329931938080493805327759112652226871052569011597809136370511145069362776997104922614552771710503048438161755195081140478325492090239479704615507675780279518044283054791364204590435060574313603813704288582006229479538041151743629042666930392542663638671231803841654883697409861037666832553747459090361042572654618129303415910657931560194033236866583272489730323437810641417810703148611312757069019030669221268665065650298963191064205409002811670302679027346026147596183927214620251811623765206035102421560785153529503023248567326272767020222773056516878342902129904143585572113020311352399332350370193125903611618324101830221499527387616017280959576565087920162507726208450303001521453132068171763014175581774788447710131372082168902385001210215207400903460011722844037136355820114848782711865028401030743449945493958009183656840556201230081030002057099309500754013032836483904007263644452261818050061191690781808681400549588614162359892005188686826970964450046514040097545542200420219063666179278003558288295272510970031354380364241083500228452345013081110002509108608828550760027621112632908025300293806429173144135002,
  650890178554927180591453352644439044105731908208755564880056688615151687502740551460372696169336805330424923177115623052622493448783360730511250360826022199304924647995923966533048476670506925001820479040326123157149804616807822222837779044306214661004687290435464446922493492404295473548704430703041163244814207290470392730294258325283403844645567000405735037713380705313472660361113277263460681203416958128021901231033251991950246643760323650549919967888703151523760489121430030708001582823688940299465027951590597702812300892455281450026155283542964420800251902456377977256102422599993620224201023260067177507879270222896001393051849302131172441597724243020323960474777851960193246510487145694801831329959509315393017290731157670002270162590199699301470601522118256713581262014180696012186940890131409484642418558501210474684973670795011739868898906993100114954074838827486701031354938127616191009186977123894277260081046773775755713900754796535181647430007267005823813958890061204821619024541600550050683705396860005190131173194466490046553371901297285600420309659769296570003559963638490230170031356579748141005500228463340005256327002508772918703228540027610125374151367700293630805208251885002,
  719938211117436490591604534989264520805735161824427457331056757419452588814340551603299325293887505333340456918646074052680876159910792730511365086365513450804926859502266255058048518473260837339670479814859379756222204618213923561520476044331215240230963640435899606039812279004210288511462388364040175590809777315940392931331889066336103847843978538519606037763069308669284290361188611549621152103418072107962514278033268047775855906730323875955984767152503154603879338012215030748938234802504830299993784191670312202812964073435167192026163353195270793510251997629062706489402423686835615926654023272071829543365650223024105142729678102132491509798812826020337048972233328660193371481328185060901832476403689511471017300818916989131240162675184646397768201522802372017531080014185946585908797150131447813591131677601210740101736214483011757251527014000450115061382969790182701031976996948149719009190348655005797840081063773444643128500755589249176907470007270400581067494080061218059036943704300550515668943044661005191582031475576870046592810026037563500420400334406449872003561637160604017400031358771337829768100228474207195699819002508436854100544410027599167019575069100293455836921690350002,
  796147554974754670591771086354173024905738739522113378784056832936206324053710551759877521513914705336528518413178007052744597285550692950511490069074862290804929264245709999214048563844044472235030471065393747177264204519734365928803405044358198508503507320436368401960673806004211085472506497062040188841690586222670393146703096046389303851264059854025739037816102876154290520361268867800030292003419256664728371716033285089112863717870324114753248778048703157860927481959534030792146041715764890291055084021140346602713661452936015580026171823245721335150252097338873064146202424823380895542471023284602233393230300223157571845485204902133863258052918724020350635033209389830193500963399862185601833662040516972719017311232303946814300162762751272886426201523505972468105235014191336784132685920131487089582438277101211011578148888803011774998491923050430115170740262329699801032609779957758899009193772079570263510081081003494050603300756391255010938235007273828948237792520061231403532896988200550983577151849482005193039402098585700046632354121660197100420491086525631940003563308848741257090031360955144389496200228484947255146650002508100422621835040027588237473852675600293281520660612655002,
  880244003956571710591954532823237100405742672817755840837056915804447520014840551931379061473195905340013940933304054052814132414765410180511626201922583067704931878657537793517048613079037377468090471156278792664845904521378179500352219044387317063063459170436873356017680726904211942309167094197040203061662269472330393377396302087586003854920655383241504037872698757116897490361354356066296285303420516104395264585033303174141397004260324367705841372793303161304652372860600030837745661748044590291113764394177902902714394713709242824026180712613280447810252201791336284494802426011784156282919023297680158847133290223296613156964638002135289663389198022020364736368539812100193635108570765370401834888113856255631017321981026439764500162852971585489205401524229564145064371014196869965670734780131527333585094807901211289236784795037011793116466274442200115282180323081743701033253442474039360009197248049353848990081098466371945476800757202633272920029007277291150092452960061244855603873742500551454415563026209005194503285218904600046672003836675659900420581915077540055003564978690150780370031363131179017222100228495560851517113002507763631794868960027577336641900955800293107852799045307002,
  973025194652447080592156548410761558405746996217772086515056100672254168026860542119191205603797205343823762183911771052889998387868499790511774453519376932604934720527633318056048666498309696283970471254704938996133104523155086440749763044418734887978536450437417172625095205304212863380071211501040218319335567388030393624465771427630703858829568799174062037933087913342021470361445405202370395903421854985629996298033322364339174435050324635619691286409903164945315425880831030885863877328704150291175571395675264402715165617298809679026190041065637357140252311200796932305702427254288315959910023311328224453726920223441448571358691802136772772196097850020379371275854886710193774073445115985901836155903934017580017333075057230778080162945919415057915901524973664960131547014202549561289715370131568566975904059301211573202360594233011811612226156785060115395737212358258801033908141595640553009200777222243000790081116164544020737600758023464952095309007280787411946226360061258415746506594700551928191362284751005195973680863469310046711758818230613900420672819015597373003566646672202316980031365299453023164500228506048649919975002507426489074509280027566464428881490600292934829737645122002,
  107536754798483820582378969051558962405751747495758954078056110645355389009640542324826912647898105347987414799529388052972756777404058330511935874347829383504937809113622468652048724447693107434100471361280299188793504525075552305431447044452628177075969660438002752142698224704213853350930340891040234688018194051130393889035840590926403863007622736452037037997515739476662390361542363960354591003423278133909517583033342724660593358120324919344713814634403168793717895490824030936633891350333580291240664275052511702715976007541013185026199829255230133080252425790773767107202428553227909650870023325569928526773450223592305692302902702138314702481637256020394558657545744300193918019498385986701837466728308322245017344524640483133700163041670457938618001525738804901566192014208379075052993670131610811546492056801211863601767667133011830492652391978300115511445448793412301034574036216433292009204360262278001540081134100493741859100758853831437307294007284317959655912540061272084457056228500552404911689658969005197450588931141270046751618712127395100420763797295973905003568312782385950800031367459977829026600228516411312655872002507089001843368460027555620740202213800292762447903458639002,
  118823386508585530582623807881301190605756967994148034380056121583109066351470542549935933581047805352536932854898984052106301765467135590502111603490504659404941165258525279946048787300793880103480471476660603294944004527150841139795314044489186214410729170438633204613180402104214917215455251761040252246025355375510394172305411127182003867472722093515488037106624293095720480351645602147569498503424790656506638192033364323725115054260325219777107221299003172861227992077521030990195637000122110291309210015891960202716827814211208387026210098756710514510252545794330171104402429911032608706746023340429681206303020223749420512455348402139917646201568313020410318039232132450194067113216442869901838821942861192559017356340298438375420163140302318158164201526525526283089737014214362085683502460131654089510176348901212160564103623797011849764731831542150115629340014018451901035251287039722084009207997839686497010081152276722393132300759693814516521562007287883019615234830061285862231396225100552884583639338929005198934009193117790046791583162843386900420854848877607255003569977008311571380031369612764966310500228526649499220891002506751177412457160027544805481518913900292590703749684145002,
  131268163760515540582893271922860884605762702953001971858056133576565551376030542796316858572932405357507175697084710052116144366454475230502302875895135115904944811517562237684048855461158503356970471601552815505560004529393074532680355044528612316155615450439311864430315207704216060317646020627040271077010063711240394475552719803193103872243921117804505037113954640207532720351755511848160802903426397958281801800033387234015408667750325537861763543803303177159809295590727030104669610179646960281381383693083889502717723056823264376026220872105903566870252671454458622126602431330230866198213023355932837607992130223913037702006962802141583871657274663020426669588746389150194221526238303971601840222942814902116017368532838240190090163241894550446867901527334383997225212014220502247947985640131698423508926506801212464220704164937011869435558664316410115749456357365320201035940056592500849009211690630916981950081170695749123458100760543496376329468007291482818749688590061299749564997925800553367214259505123005200423941293342940046831651813550370100420945972722222813003571639337708325280031371757826074645500228536763866310259002506413023021830280027534018558736665900292419593755436250002,
  144987213795986020583189780304698050005769001868329971565056146725156221368960543065930196614307805362936070511237600052126875443309788650502511030218517431904948772294805732364048929364603094981030471736719017535796604531815294898693986044571124838053202590431004230599878324704117288375544448159040291270314464229360394800140402724599103877341494491039871037121772025695962330351872508712689854603428105758322352456033411532085735908420325874594799219945403181702050525126237030110628966644760070281457368845601951502718663848587776613026232172840318117350252803024479709107802432813453693025475023372105732094940610224083410906387028002143315725965316443020443634135646683050194381435502584172801841671163772508840017381113358907184210163346528704111561801528165945773117560014226803294062793280131743836620417864701212774705175298348011889512335735615520115871830400599208901036640509239752960009215439318672248850081189360110991638200761402959601435135007295117584511369780061313746952915366000553852810552166644005201920384748926020046871824306133732400421037167794353833003573299758424067680031373895172900133100228546755067822224002506074545841223090027523259878011216700292249114425512785002,
  160108036088948690583515984148350380405775918882503307043056161137445337124390543360912573903197505368864875143910737052138573133443141130502737517293852531804953073990417884375048100948171859073830461882980577267655304534431533282263838044616958252838702810431082836045034981304118607506541352613040312921343459968170395147520870802342103882787012643607988037130107681639689420351997033319329595203429920107472744144033437298781081169050326231026211202029903186501196725860493030116913845917396940281537357865553834402719652400535275506026244025541265822630252940768456203501102434363438569041264023388975713706943510224260803053432700302145115637600569540020461233191272829430194547023397722108101843168082783137951017394093258457346280163454288367773062101529020792438897060014233269035121469940131790352365179279301213092153425911871011910002375877831670115996498542679764501037352811198793532009219244591942790190081208272363011116700762272287174124334007298787544873777470061327854889770235100554341379473001037005203423338950560510046912100281211647300421128433061360988003574958258424810520031376024817293704900228556623754861999002505735752970685320027512529345750339200292079262290164332002,
  176770589404082670583874788274025650805783513209571205745056176931947590061720543683592144059508505375338462828216003052151322264513588690502983909269619953604957745159270045781048109632056456644250462041222622934554304537256881995890628044666364302329072290431167413348516902904120024254336863777040336131961998260220395519242014970166303888603421539646132037138994770357194080352129552610471447703431847406801273949033464619467555442650326608262664479412403191571181937400239030123541272616268280281621552404178122602720691025810904945026256455877648779530253084961622717276502435983033493676068023406571182783423430224445486670299185902146986119014962397020479488969358337980194718477916072300101844715219432536144017407484241187077980163565259214982659301529899518188653904014239903362544416220131837994713835909001213416703700706258011930913103252571280116123497664551175601038077130553654942009223107146040158380081227435078194204800763151562473716911007302492928326596800061342073869736901600554832927931197863005204932803162949810046952479378154154600421219767493451626003576614825794172310031378146771209497000228566370575745903002505396651441209560027501826868615116300291910033904866073002,
  195128480222092590584269374886244354405791849598515192615056194238016924351900544036505310760100805382405630584698902052165214911700473670503251909471673275004962816681797148911048119042956545448710462212398844526563304540307572425927039044719613229177539910431258402441130047404121545617657797463040361010917461234480395916953260602728603894815127187633227037148468499196680900352270561408741609503433894427051136191033493584274627045990327007470417194722303196926663410334206030130529121884919520281710163795484020802721782144147278931026269490651477628770253235890831495141802437675201180687553023424921628817172480224637744210394114502148929769333856517020498424407212615860194895992811951955601846314136959423575017421298325107686830163679529050732135701530802730854088607014246710249550880920131886788094447871201213748496613489774011952252054704334940116252865133960898701038813637269513471009227027682630276000081246850847595752800764040869276000616007306233963870455640061356404386527464700555327462789304133005206448776525234010046992961235102172100421311170063698696003578269448732825470031380261046703240400228575996176005612002505057248215350220027491152353521206300291741425850092123002,
  215350261746905740584703229415527497505710099883773733608055213196812681363340544422414871501582905390119433211339862052180351000095868920503543363044100983504968321948002037868048129240062388840470462397536645582784404543601058361417338044776995093615817580431356274646010183404123179080842502063040387674288687711320396342411991686147203810144808514522518036158566241883127310352420584016627995403436068329125924814033524288349758030970327429878389816104503110258305744063858029137896159875000360281803413498257804102722928286522473611026283157845184289410253393855014906870402439443023401802028023444057669577164100224837868390627568202150949277132172649020518063187487604640195079767763733464801847966443398184799017435547849542315120163797187858872325801531731052180907617014253693752653566120131936757399945781301214087675180837723011974026881125823400116384638810307243301039562503207158645009231006909766702280081266522280356310400764940291752649395007310010881011664760061370846933376878000555824990863073530005207971258051423840047033545488986419300421402639748059346003579922115557943930031382367655930663700228585501198392579002504717550187842870027480505707640020000291573434731092099002,
  237620853525946090585180168707354405105711103830435635324055233962349612611510544844329699946624205398537544926226019052196838955766313300503860268428532025004974297055591207407048140287246694669680462597742670122492504547156105225145631044838821180849121600431461534846000879704124932646410238802040416245963243026700396797490366452173103810852989530169622036169327666781511470352580175904130800303438376685662137026033556832126051996630327876781385114373903110855657689453060029145662086059914400281901533557187427002724132100010362003026297486670795625240253559165665223457202441289705484155391023464011091539716970225046162539276351902153047423292408448020538429760543383190195270008540074732001849673792748443086017450245482886274320163918327850455004201532685118110029820014260858013176100820131987927995663985101214434384856118587011996245348834862610116518857049515515201040323902137502519009235045541923844210081286452003744720800765849914470623213007313823909756931600061385402003028105100556325518921317429005209500246630835240047074231775546262700421494175525393166003581572814702649520031384466611145913900228594886282882488002504377564186213670027469886838399893100291406057177670155002,
  262143092601229020585704371766129976905712205256218698205055256702638846374580545305526093744308605310772265088804674051214796409302751920504204789746000205804980781023294343175048152253424217617150462814208731157781504550992885611192140044905425505133646260431574723795635870304126814869739224292040446858144647718200397284182547412016503811608990223677279036180794872454115070352749925489072499803440827503743781185033591321603547232180328349543465995035403111486427049946464029153847577457200400282004767083885935702725396352830765503026312507621036675800253732147332280386902443218580966595878023484814891668475460225262940954769523302155227083946752940020559549367427654890195466927170382100701851437886172078590017465404230533858320164043043513013567501533665579063674427014268207258793670660132040325726972524501214788773563890104011101891534096303490106655558708942952901041098009756130483009239144300030118830081306642663200190500766769822391551428007317673280608057800061400070087717340800556829053685759723005211035741028530170047115019729348492400421585776377480090003583221534715457760031386557924699989400228604152066679947002504037296971384870027459295653487202400291239289843966259002,
  289139428071756990586280413279800723405713413401260415267055281600927475112240545809570924882948205311774287099341442051234350955968301830504579270150233825504987816020495959492048165212938145876250463048218169032020304555133081560034754044977166416952887820431696420587036229304128834895984931955040479651891375525750397804612370014400603812415930147083870036193012530909520380352930456014935826403443429248816847924033627868644818394190328849601498546598403112152406398015442029162474334841134790282113368758623983902726723939607164402026328252522434400990253913138139650162102445233116420059232023506503320584752940225488529275709752302157491233505549388020581448063484309940195670742119601804601853260473218255152017481037442974702360164171431660797675401534673100236398253014275745805097068210132093976927008674601215150991734666895011104204485885601560106794783152312157501041885003697890867009243303911501058280081327096922373791000767700100871098674007321559224556609660061414851679159263100557335601830893110005212577739885758300047155908983805999400421677441289037896003584868264259722460031388641609039185100228613299184223215002503696755238276640027448732060847423900291073129408239806002,
  318853771993201980586913300170161945305714738360284634734055308857045059378600546360346740595508005312867221853707779051255640976865722760504986246226332314904995447614388664467048179245975205041200463301152669749623904559599994030698272044105442832012024600421827245279610768204131002499378157738040514777689536402460398361041475512670903813277125193855500036206028038961681800353122427531342869603446190869864193034033666591285580660870329378468867993448603112855480312185492029171565131030352310282227605353613095602728117886839994638026344754590495365950254102490319967047202447336916437390661023529111927171027310225723264862453861802159842947774420150020604152742606655280195881678467438553301855143353077036882017497158824062857990164303591485977824601535708361891154132014283478057180455870132148908424509096901215521192340063138011106564202348570190106936570254673279301042685063551525401009247525110272361750081347817463169433700768640835658313987007325481973078575980061429747268532358800557845169983839497005214126241720405490047196899171196379600421769169247739637003586512992113082460031390717676703561400228622328267189100002503355945616399330027438195968686175900290907572572655429002,
  351553520675771830587608511434921278505716191159669414024055338688866022369240546962078974647226005314059109652225499051278816525881598880505428463514249517004910372503594442960047194439011547001150463574499575508620204564418660059705511044113762350607123160421967861704059819404133328125050709335040552396061271128530398955877935056238203814196099503584321036219891678139180400353326538982543868303449121825904283167033707614061022175570329937739375578967303113597629884657985029181143861338652890282347756278713032902729581358603843057026362048487033247680254300570770066835402449533728798142264023552677604651497030225967497190583679202162285407162413701020627691162151155830196099968092100936801857088375862177986017513782439461741860164439624610835295701536772059660439638014291408511253104760132205147551743434101215899530928311890011108971507687413090107080960407394658701043498370874337627009251808636832887610081368806985784272400769592112894962925007329441758128999350061444757346464288300558357764724212086005215681244927443220047237989922680476700421860959244230367003588155707166904220031392786140325415200228631239944497969002503014874670446800027427687285470184500290742616063071102002,
  387531761673262730588372041570365239105717783841287267556055371333897641777240547619365441562782505315358683462471942051304040287524127460505908893242354073204911270146609317225047210885291635770480463869859721829030904569615978128786876044122719411307188800422118980451831526804135822933545425291040592678211001415210399591685393532010703815176598060906019036234656783607652520353543530409552780503452232113880306048033751068348624077860321052909132475965403014380937439155408029191235596280726980282474114150470243802731117662477158774026380170379724680130254507761626626468902451827449814048525023577238638194916180226221588256607538302164821899983598818020652091968527972350196325849858676090501859097443923687480017530922725268220750164579635140953828801537864904852609187014299541756275409610132262722152550397701216286165660164089011111427238352925610107227994523182067101044325109206900324009256155238257585990081390068208748565500770554019114842681007333438812136591930061459882403017308600558873392583980986005217242747779382960047279180868320803000421952810272143838003589796398425725900031394847012627776400228640034842318828002502673548900878440027417205919928247800290578256628828333002,
  427109683093340380589210447888151232605719529553697309233055407051004136113790548337208300059129305316775427004691420051331488611157558210506430750362603019104912243434359729083047228685342495951980464188955837992849304575220842297521642044132361421856124650422281362061866614804138498848176574955040635806711802973370391027119276326963603716222600027499606036250379922592324740353774185271847198403455532298009323434033797092728262182360321115429180545743403015207591468292890029201866636628173650282606985385428567502732730255713404141026399158003974592740254724460863009699802454222129861047149023602834754086133980226485912996241135402167455825854582465020677384723484855000196559569812237463701861172513190774317017548594496819098440164723729719429042201538987624763420676014307882475619445350132321660590477210801216681257345169386011113932243189259700107377714041126355701045165464087800352009260565668240368700081411603868964959600771526641243079871007337473367998328870061475122927673741400559392060047340584005218810748426732240047320471637099892400422044721328118733003591435055006701760031396900306422908500228648713584074569002502331974744500630027406751781052126100290414491042544773002,
  470639203310090340581013090206647722805621442651317042838055446122278195804020549121048686718826605318319637574855492051361352627550846600506997512985578571104913298569621703643047247947525853697830464533641549986952704581264285693490563044142739207336742090422455820417195792804141368605416580200040681976234299650080391099730449940013203717338332848119699036267121082812787460354019332894844752603459033540664477928033845833360420793940321181520118550222703016079891800169636029213064570915009470282746690818689278802734422751662893384026419050727174981200254951082908048051202456721979103894710023629507170514109270226760859715625996802170190699190492736020703599931101384130196801381375792182301863315594545794774017566812957683363320164872017582112234501540140962992891022014316435448754371220132381991757023436501217084969478341727011116487383579883410107530160931779657801046019623068421378009265040687126917240081433416721747230300772510066595412177007341545659074025220061490479409321509700559913773550580870005220385244898456410047361861856938587300422136691411814664003593071666139044060031398946034610833300228657276790447300002501990158575038520027396324778097423900290251316099908663002,
  518505840733922210581114124630482428905623538802253702968055488855072229733100549976804236841066805320002493980905109051393839454102721140507612943320826162904914442249687513823047268788630875131910464905911027775500104587779633991194852044153907248709010010422643226364724516404144445808495444158040731394320614349200391177311149041924903718528287173799707036284943871468496980354279851049675645903462747634866734620033897444383386979950321251377781879420803017000255004276818029224858335495790860282893566348734212302736198926454894093026439889615443852120255188059287509018002459331373419600298023657298650025458470227046830535852399702173030152802023079020730769065510855950197051545553175964201865528755229830537017585593708843571860165024610613905123501541325679767533736014325205552956959540132443745079990117201217497468277211843011119093533594735720107685377702259955701046887775727763339009269581061947424460081455509540858449900773504382877452895007345655919180894820061505952336239719500560438539481960515005221966235102442240047403351154714226300422228719525927750003594706221163468060031400984210177862500228665725079383808002501648106703708050027385924820584402500290088728619475686002,
  571131845001577230581225005448280970305625835105531419841055535584202590957650541091090972653470105221836129996614325051429173495582538460508281110235631798004915681704665049964047291334510394092940465307909321536163204594802669552135135044165923937452964800422844511572356591404147744984410324010040784282206057875360391260190259936552203719797232647670542036303915725341230760354556668672094098603466687038466280435033952088330333273400321325208298013211903017971220047240299029237278277263578450283047963609564157802738062725949912289026461717502934046850255435839289027795302462054860526090770023686253553693980240227344241851163649302175977941596199027020758924599367520630197310331137006017601867814120280537843017604952758069803500165181623406122402501542542552268053247014334197765047541650132506950531935176201217918922719269095011121751580138582040107843407401384000201047770113687298074009274187566449268800081477885118548592700774509678183938746007349804382588088070061521542196084302400560966364181582960005223553716825964750047444939156278777100422320804676205981003596338709531632480031403014846195145400228674059066101057002501305825379779540027375551818298770000289926725442467728002,
  628979612800860820581346669875761512105628350218511387240055586674341116252160541193036108855385205223833713768572615051467597847738013960509006413553619113804917024738656048617047315720763720354120465741943434482938004510237180694214241043178851847366568740423060672638472317304151281644554354972040840875691390052790391348717689297710103721150234601257633036324108132609746460354850768727708787503470864910097495125033100993656723796350311403228603708549803018995454209352368029250356219139206690283210250671244120202740018272972432604026484579063804634810255694890651302998002464897166322707487023716417897057973940227653524801227642602179037946383588532020788100033077236630197578014921804335001870173874002919413017624906529489677170165343173314939156501543792374962570813014343417163151661910132571638638736023301218349504579795275011124462423100571760108004293624828494401048666830625860358009278860981129616870081500546265591549000775526040997960171007353991284011212240061537249475873701900561497253941275056005225147687736156470047486625486476769700422412945871464183003597969120805583260031405037955817229800228682279363091860002500963320791136050027365205681292454100289765303432573856002,
  692555413553131370581480142207118212805631104495368027506055642522609469333760541304276307422730305226009533645162528051509375811669916200509793610223372950704918479774022997816047342093469332153390466210494183081691004511052828058852345043192758024634916930423292775469692743704155072349186180644040901426068649341070391443265659825272603722592671711667575036345596867002431750355163191231066832703475295146995391902033107116975263536150311485666986974142303020075759273303061029264125528447749310283380812769988392002742069874834755799026508520886950748090255965700278382895002467863201449338281023747839407878676490227975125757872613302182214177794749479020818329924810062750197854881922406454201872610261473686280017645471873358002860165509380520940734301545075959945460679014352868928487752400132637840488260488601218789388470093311011127226975505008240108168080520319725801049578122294575354009283602093267960620081523495811321611500776553560190176905007358216858606840170061553074661974643800562031215004468971005226748145380483100047528409769163346700422505142123598774003599597444657196280031407053552280639900228690386580130671002500620599064828740027354886319884293400289604459475753254002,
  762413452353736550581626541707810728905634120137555227382055703561393022864050541425638085519094905228379090932257468051554792527462274450501064784249673966604820055898969341302047370609970983511820466716228898850328104511931634538890519043207714297357216070423541959943829682604159134775974666797040966201103717474980391544230082800602403724130254672742479036368462234945611200355495036426494874303479992424765551100033113597832023303170311572763654962126503021215077996989208029278621188302585360283560053068960058402744222031162943721026533591553590825940256248774979893474002470958068071173861023780567585774456330228309506826692445802185510780308756467020849649921313562590198141225597771875201875125590079876313017666666076029603370165680368089792107501546394137281869435014362558347181095780132705587739146792901219238751876112216011130046163663324190108334812792851189901050504186531819165009288411696958574620081546736603669326200777592325018014740007362481341966991800061569018240087926900562568253566085814005228355087187217510047570291627222032200422597392447602140003601223670867618960031409061648902463000228698381324279352002500277666267626220027344593644660729600289444190480040250002,
  839160299931201220581787091204818073305637421357273513574055770261392357328690541558019588162675705230959200118888763051604156736187961500501157466826656744104821762918673432749047401439720998723300467262015029543262704512878349113613859043223797605792337090423809444875947903404163487792867070018040103548607896583530381652032011928838103725769045936076737036392789336398808000355847468138989835603484972239203930346033120456298548015050311664771328955598903022416500882774779029293879872122269860283748393451004411202746479442036283718026559841717813684710256544642238087981002474187066896303456023814653763787108210228657146363939050502188932036396738148020882096789546188210198437348080316021301877722231092424271017688506870139027650165856262034044981201547747755358000445014372490812104405800132774912629693827701219697775197472132011132920927327277540108504535709929566801051445223278214869009293290593142904630081570271509196828100778642425124847541007366784970113609030061585080695234313100563108375772422842005229968510465920660047612270682582531700422689695861576697003602847789326712860031411062259078952800228706264199893160002499934528406559760027334327566476456200289284493375351270002,
  923459721943983960581963126434403368605641034555031943768055843134931902056440541702396633844235305233768097157487905051657802680085926070501258009372446482104823611410233584451047434765184784068310467850934701354957904513898067167928332043241090354662479210424096533306550375204168151535543465502040110958489951962670381767119183095286403727515480580734491036418668340103314720356221717303856154103490250950267438186033127713527721965240311761955867681168603023683273256079825029309940021410253170283946275344580137402748847016452075013026587324190191109280256853851002623569702477555704433557397023850151171937918260229018539509128241902192482370783401298020915708449150317400198743560410884442201880402621275372485017711012444990786740166037191376100148101549137681237237914014382671824745303820132845847986862452201220166641786890690011135852219843360730108677295106848631001052401434591660863009298239589641872810081594103413132536800779703950539161150007371127979493005880061601262511740433500563651587721042546005231588412407922690047654346556238381500422782051386748704003604469790032496380031413055396284146300228714035808626772002499591191429461790027324087996455028200289125365113293914002,
  101603794270629270572156106212469674605644988512488034309055922739546803918710541859829256744228005236825556427742539051716092151431821630501367060851073467804825612781699611876047470782810861753630468486300307862801904514996254979990397043259680788938093770424404618132047414204173147489735630171040118882126687623700381889967644916357703729376388373613449036446194774007397520356619085684212399203495845828300912068033135391809560806530311864596920229041703025018802666709916029326841926932653530284154160584200231502751329881127967523026616094024565307910257176972514000743002481069700498239155023887115002832966670229394198733798069202196166354829610508020950524005785146790199060182779493804501883169264531440670017734201457163940730166223288212343758301550564801022194010014393106997101016920132918427235389042901220645537990014302011138841008308436930108853137391991411301053373024662393385009303259501188111280081618235219405317200780776991673702428007375510606970309260061617564173224790100564197895460665032005233214790086809430047696518868264582900422874458047481756003606089663090586710031415041074068492200228721696749440445002499247661225502640027313874845989439000288966802666977859002,
  111768938143794300572367623498029586005649314601845685805055100968187079001270532031468785216034905240153017060787668051779416701400820090501485322354101955204827779335485540666047509704071023851090469171671195771325204516178775884568835043279663394615700890424735188098884851804178498578704791715040127353992382464850382021083485230934903731359017085649131036475469831669986980357040949785932702403410177510263105703032143514629753966410311972988609917708803026426666626881508029344627813434491690284372532306742141402753933389654501538026646208608124078430257514601156628766502484734995973596960023925602479378550040229784654406867814602199988711039141502020986583785339866390199387544771965062701886024733584668104017758093041334795850166414687778475505501552030020222755327014403802053600585560132992684407012101201221134653185655990011141888273726598520109032109552160191901054360199828080647009308351149458110450081642669850678027900781861639324610844007379933089823879920061633986162583800700564747304991062647005234847640458909130047738787237835060900422966914871289960003607707398713642700031417019306057494700228729247618606145002498903943625719420027303688026742667600288808803030827721002,
  122928290238769750572599417426198155505654047013195413280055110462184960217820532218565499281352705243773719351667672051848200021054560480501613551170744352204830124336478729045047551756575516327770469910871522143462704517451918223016220043301139326094159920425089834183993444304184229256189815828040136410797483527720382161004658958338103733471057132479156036506600695485328690357488764980054866403410805801264308181032152106731086719460312087440250497888303027910620700473530029363341928040315270284601895885037773902756663132010949238026677727754880356860257867355342511514002488557760836126030023965672924669406880221019045537705864402010395431769281527019102392936904812910189725985622577724001888971671700867979017782706821321607890166611528516047603201553534264130212028014414762833054898510133068654149812985101221634179826442560011144995011167255360109214259157934521101055363168588949047009313515363104285550081667410248380488400782957984670534341007384395665739719380061650528961977900800565299822262957361005236486960363784320047781151283240097400423059420888850864003609322987220807350031418990105950367100228736689009713934002498560044403543040027293527450648193400288651363220397891002,
  135176862370411280572853386393482494205659223001293777812055120827730653232240532422476913194023705247712852042960581051922900507476503700501752565166619977004832662085182623326047597185268495859210461070800936271922204418822425197808938043324216861854407520425470256385581651904190365605155499313040146091628632371150382310302923043167903735720667611774922036539700877613462670357964069843172372803411471486146114662032161194177876893900312208277096149801603029474606958626446029383030632490792660284842779900205754802759524944458012358026710713802676635980258235878426578597002492544402453022065023100738783411407390211061216957284777402010806821361328631019106260362952519180181007585447287615401792012794446637364017808062921355217800166813952140233406401555078478197550448014425995290634865390133146371737671793701222144313479873797011148162229924455940109399634369057067001056382141622940713009318752977786961800081692459372741859300784066119271728401007388898572805862770061667193052817718000565855453177920739005238132746524724850047823610621903668700423151975134018048003610936419037151100031420953487518704700228744021513678306002498215969275318250027283393029910473200288494480272189216002,
  148618533374506240573131602285021051205664883153400417445055132142888868926200532644676732687863205251997711321440084051100401402903603840491903247493868118704835407996253813922047646253709356559720461156749715615002204420297526757134459043349011890253078300425878270949732831504196935442689750148040156438097143864750382469585884517025303738116503813218283036574890579545922340358468490726836458703412176707235936098032170804423567198100312335841126789690703031122762817423510029403742499372711850285095737154241896002762524919821402863026745231713838693070258620839654718051602496701574160347119023105081094986340610211105038462043966602011233560306383176019110265076774954690181043751063676100501795150891487680848017834181977579581090167022103708844626001556663628425990889014437505499878033570133225873079839308301222665252869795520011151390953677442500109588283939847225201057417331800901369009324064836206267950081717820202822416100785186135069139099007393442049506753680061683978915750292800566414203588276342005239784995549243220047866164870400667700423244576643833420003612547684693113500031422909464605162500228751245718744677002497871723900821310027273284677005395500288338151243467639002,
  163366856765064470573436325940862140005671071679922174266055144492542489148660532886764540350913505256657872432956778051109207690478590360492066551656945090504838378682819091384047699245445901462270461249407357453825804421884973642990283043375648427352172900426315818059790508904110396843141862502039167494496428463700382639499168033091803740667746281063198036612297071282737220359003746567527480603412923724803596099032180966381620437440312470491870266326503032859430274032149029425528412505954090285361345724440296302765669418180826995026781349179607228990259022935145600553902410103618413072454022109600833761018580211150570848025082202011676186078457615019114411635101141230181081132387200236601798388828427223172017861085149786276620167236131692616822001558290701757856252014449299654723978460133307194730626130401223197199918289953011154682220652447620109780257224642634201058468954201799089009329451788133949650081743495736544751800786318124383470564007398026334717610400061700887030645381700566976079297005069005241443703929574910047908813644474065000423337224458539305003614156774823948740031424858051122154100228758362210495908002497527313883769850027263202304680718700288182373212084469002,
  179545940147860900573770023966406398405677836729755209190055157968972851729700533150476266680709005261725374888619062051118766911409405360492243506960166040704841592046984901368047756465485735666010461349282691658037604423593073744725983043404259168825182460426784970017123663004111149619782947669039179307968876402100382820728709571643403743384131513371647036652055091145591190359571653949309857503413714923288940231032191710499871388530312612607263094735903034689165558340594029448441671657261380285640210061274104202768965077979388452026819136728480116900259442888907417341502410555540453962324022114304846582942760211197877010241571802012135253716964916019118704735185077900181119767465831248601710172954868529033016888794133387049280167456188046782358401559960706475852879014461384071578767480133390373899209912101223740359787984854011158037083785730940109975604183268196201059537226127971863009334914690445086420081769488990724364700787462179914235780007402651667698774320061717917876581808300567541086057653187005243108868043179260047951556559051963400423429917621590147003615763680169167330031426799261050556800228765371571858944002497182744772331420027253145825956418300288027143276298736002,
  197291402604549490574135387000821570805685230732368531350055172672488126815160533437695508795749105267234922308219615051129141775378576120492435224364903518904845067376980100806047818241872686587570461456922012589844504425430730908954883043434986078105493580427287939943566583904111955245791495824039191928682751143990383014003183375294203746275984386380403036694307267303293580351017413243186852303314552817844153007032203068838495926240312762584551444560803036616749217817895029472538101757193050285932962131425319202772418827568953465026858667838602406660259881453890689591402411026668103955924022119200228753095590211247022010183505802012611336358886630019123149218800827530181159695448211937701710517607541965819016917331171628560780167682428283950830001561674672608849494014473765191408824270133475448459561713101224294940924784357011161456610887860670101017437538653276700960622367120404337009340454407149719800081795803001099644100788618394738791407007407318288090044600061735071931833875100568109229574242098005244780484153242020047994393228264590200423522655179664016003617368391571981870031428733108438432600228772274383111550002496838022059626900027243115154125100200287872458554601171002,
  216751416785888350574535349566618200405693310768836843643055188712103662574400533750465763527705405273224098024991539051140400076132915430492642902786332667804848825451403313646047884927375512877060461572911754382446804427407486366299052043467981013075611900427827091037626499404112817315057435007039205410019669830160383220096569551275703749354252397031401036739204562139317770351081321015723270603315440061205965669032215075151765072060312920841234172728503038647196654037784029497876166803429230286240262607714295102776037897207555388026900019054345646240251033941307834211802311517774255181118022124294332459772490211298073145330019302013105025785759960019127750076341259500181200956612818523601710873151348928049016946719068053578700167915011548317036001563433652344240673014486449581864518830133562456960492532801224861155101023959011164941884809244500101037662202175331800961724598974032732009346071809424387330081822440822361266900789786862311356521007412026435905000810061752349673857850500568680515501181360005246458548409183100048037323265461133200423615436182673755003618970899978749710031430659607399763200228779071221889021002496493151184227500027233110202752299200287718316185540116002,
  238087843019907920574973111633707886205610213897420796256054206206278482384660534091003646721931105279733597659591714051152615092394365530492867835861726925504852888651078616309047956901296649375900461697881351300278304429533562945554190043503406393736371080428404946418454357904113739657923371107039219808773280509250383439830870176492703752630541821503757036786906740647378040351149102974913015103316379450913636403032227764973759024390313087816049765629403040785769130050104029524517088640599480286562802107743453102779829831525470414026943270107222720520251081758061427097102312029661138551895022129594775478531490211351100020724078202013616932985858999019132512451022868520181243592397821591501711239905146101877016976981199212878270168154100691216763101565238720446980654014499443939433803570133651438635821050801225439217459052184011168494003606912230101058239589830668400962844145753078010009351767775643563770081849405528180984900790967676462016347007416776351525314090061769751579278517800569254949443184647005248143056847164930048080346283226598600423708259683777946003620571196438419060031432578772113192500228785762663191074002496148137530649510027223130885676808100287564713327549060002,
  261477463354596290575452162042208739005611178297378126064054225283712442769300534461713176055215405286807479961066680051165866019495162580493111419224566455804857281079057865447047103457140925256250451832506295572025104431819912256594918043541435913444122560429024199593583802404114726356217276118039235185359779660160383674078982159542003756117155892625840036837582864099851210351220985451957927503317373936889310707032241175708223906610313263970009134207903043037985268550040029552524970814056540286901302483135333002783802502477166827026988504041289110930251131680297167160402312563161369431552022135109450146000230211406174622665587802014147688731953430019137441643199140830181287645431661056301711618196366051212016100814152763218620158399862348050857601567090974685374922014512755091626219350133742433414663518501226029346555241122011172114080712551880101079174945320855800963981233806405682009357543191411001470081876700211239805700792160931395709260007421568275695043260061787278123875777900569832536955187065005249834005390602940048123461893398465700423801124739391520003622169272101973700031434490616820787900228792349279388771002495802986429843410027213177117010936800287411647158775974002,
  287113324118647200575976303940080350605612231635607968594054246084208913447380534865201200567755105294493437308917030051180238434023581190493375158321134590304862028689344866874047111837603136149860451977511405889310404434278265034731547043582255296461554300429687725588568354504115781759207427250039251604040949062670383923767735554124103759827135104336258036891411810295516480351297207499802368303318426629398131088032255346722761993720313449787476287052503045409633061597718029581966927702576270287256518161313412602787964122796921631026103580734318640090241183796016243322402313119139028093393022140846532615492400211463371394580283802014697944175037162019142543114784989320181333159564350331001712008361226803640016104022461503857880158652467016598441701568991536263717405014526389999187601750133835481931846906801226631764404428321011175803245101802880101100473575671984700965136091782912445009363398949590975560081904327983255564300793366721691198114007426402449514920890061804929782571334000570413283542266182005251531389850679780048166669707083319300423894030409196106003623765118221879160031436395155826807400228798831640231472002495457703159679420027203248811140769400287259114876914387002,
  315206196301932690576549682404428990205613381918552002870054268759608219594420535304294066429037405210284308737365915050195824793931535630493660676808854841404867159424955910358047120878624657519010452133674320615699304436921184851304611043626063104734647960421039859277889165304016910500534113245039269133160428464930384189881106480695803763774299756912882036948582821757630170351378021579903971503319540807406256182032270319447554510090313645777298991144903047906782413466686029612913219142731540287629237541844464002792323259976506477026108527007698887150241238196698894455902313698490776052672022146814492402590100211522767315123233302015268371454427727019147822493794831430181380179899525170501712410744946021958016107325563585078450158912089136740165801570941550261862463014540355758345814760133930625538446253501227246696524792486011179562641464808930101122140851798017300966308950646938300009369335950339424020081932291975009880800794585142300026310007431279114436624400061822707029415420500570997194659564589005253235205926859210048209969334673353800423986975756150179003625358726151528570031438292403496486400228805210312853925002495112292945428310027193345882726406800287107113699036232002,
  345986163834006510577176814429097891005614637855802547807054293474797493865800535782055615247218905211191228754400529050212724976731899950493969725578374106104872703365973128637047130630828127093900452301829230655831204439762125408114459043673071596984934220421116007546689833804018117516175725369039287845393979908590384473463614299531703767973294862511919036100929608332099820341463694284540908003320719927355777931032286137478824794440313852473991618240403050535798239062719029645437390765806280288020284449434233502796888850783976548026113698602401924810241294977433969721702314302147009374532022153022102229073460211584441978577258602015859664324647116019153285578996940940181428752827252972701712825701959849389016110726039093795610159178907171613097101572942186081823014014554659603087854980134027906312447397901227874371983165854011183393430378036380101144182209066864800967500043693704819009375355101134990160081960595336374525100795816288545458070007436198512257040970061840610337573621700571584275712215751005254945449207405670048253360385862849700424079959846498877003626950087344690060031440182374254830900228811485861783385002494766760960237280027183468246702140500286955640861426209002,
  379704350678606210577862621476022227305616008920308238014054320408803023881880536301806618519813905212176147384741610050231046858602274700494304192444336720504878692888291823761047141148604905160200452482870867895360204442815491646856664043723507643393085510421197566724899809704019408063510117487039307818014540992020384775623913188637803772439637536661068036107376333061738950341554507096414139403321967632376385578032302846687258646970314070438972465937903053303354141242205029679616420276403980288430519645742746702710167021634323637025119105282780491610241354237053011398802314931073050092670022159478448173784540211648477677607955102016472538799502504019158938344686746430181478926057618523801713253596146517423016114226532165145250159453103690218348701574994637901482256014569308907468645350134127367069535938001228515023440784895011187296788477355480101166603147869160500968709606564777579009381457316809959670081989241236337144300797060256121403246007441160885112517400061858640179313746900572174532055272212005256662115169903620048296842469664456900424172981749783565003628539193354954020031442065082585421800228817658848946749002494421112325603290027173615818276649100286804693619417894002,
  416634798570009510578612464803873317005617505413602095778054349755971652140080536867145759649211205213245602621793672050250906937414008130494666112552933555604885162833810555015047152490387381587330452677758766143676004446096704919136163043777613699347808670421284909522104423604020787741535569338039329133172908033320385097538588817190503777189767007759932036114220849104282030341650757187386288303323287761954527039032320495331608120380314300261857938109503056216446691288903029715530869910640410288860842402264154502710667707779473327025124757214435150700241416078269007339802315586270376906984022166192940139254500211714959488438607202017107733813796204019164786945581816600181530748655102579501713694801054807391016117829752413432250159734865451503563701577100125135513862014584311187951866940134229051374013598001229168887199482261011191273908632392000101189409234189727300969937877263552728009387643519581088630082018232863026389700798317141091326543007446166475473099600061876797025992763400572767968993635754005258385199181778520048340415194425494000424266040538851127003630126035835181470031443940543029238600228823729833677890002494075352111841140027163788512933137700286654269247231602002,
  457076508198327520579432183804826204205619138536459897091054381727248291929750537481972283343650805214406666210143121050272431002921344620495057679557660642104892150692863538570047164718940359649540452887521812595110104449622272477888352043835648841943247090421378433507258316004022262512319319480039351878194935990560385440456171368311803782241097383351743036121486835886771760341752758258285403303324684362081754872032339134177714796620314542561816067801103059282410337764092029753265045320701310289312192136595510702711191957255831202025130664979791633690241480607819964514102316268777896359874022173175322643139700211783975358509723402017766011903102341019170837721841317510181584271073769854301714149700137457682016121538476391317660151002438348994193101479259892903599438014599674105783156060134333003549842943001229836203248322033011195326000122146660101212606100181735500971185096170766912009393914639080324850082047573423736411200799587039887140785007451215526136762080061895081348043806100573364591781990352005260114696500821460048384078167844066000424359135289863066003631710606536952340031445808770183487800228829699372724862002493729485338546060027153986246429459800286504365037813738002,
  501355657711459750571032813759896330805520920465428961245054416551557167589450538150510441238567205215666986053427998050295754857576706030495481257618299984404899696799749027224047177901672811049360453113263108975936104453409861567218256043897889873129730570421478562712362670404023838723745469856039376145896190386210385805701376758315403787612073318983682036129199330623230540341860841421792716203326161695904925459032358816623198841530314797988981968965303062508932969947073029792907161141924420289785550114503043802711740827121998637025136839594247013170241547936617459797002316979673255726683022180435685943768560211855616196689637602018448159902059367019177097204212797670181639545193283454401714618686989611100016125355549077729660151032185320263064701481475212506041347014615405469396029480134439268691821622501230517215310681571011199454288811893840101236199444743545500972451506060030885009400271612385424510082077266144950758200710087004930808653006456308280223628960061913493614963261600573964405624738020005261850602275716170048427830996985164200424452265082304217003633292897310015320031447669778700446200228835568020257343002493383516975055630027144208934798236500286354978302677771002,
  549828013547317810571130725015596954105522864435702189836054454477294972809270538877335872241407805217034831898786868050321025091685115040495939394281951776204810784454226495003046192110971381468410453356165162765859704457478378404798758043964632493656813800421585749336071468204025523133638097846039402034915037261930386194679588520220203793322228742840533036137384803185428730341975356130527832903327724254901936181032379598828070693260315067225937909417003065904072163106209029834549513508040250281028194122027876302612315419506510023025143292522904126420241618179900328616202317720074198887376022187984477509316640211929975966104004302019154989661634873019183572119309193310181696624355762884801715102165592396629016129283885394975810151062747443793063001483747381906859774014631513236850856740134547892676887054901231212170891781041011203660017331352370101260195034098217800973737352113384545009406715384050451200082107314272365641500710216626651959470006461444981170185380061932034295297915400574567415675936766005263592911546565170048471673288296620800424545428998991397003634872900101738760031449523583286315400228841336327874008002493037451940904060027134456494346916300286206106371746874002,
  602881549848250160571237705923550561505524984830849548625054495773944770037860539667404066480232305218519144543862647050348399916874983300496434834309022900104811664058622451778046207424557116364010453617495430180587004461848052369143567043103619255219557190411700475553233117004027322935339673912039429650065210776400386608881593473771203799392248797089959036146071234936501350342096671152544013103329376770607753201032401539851533353430315350989260808824103069476272133919143029878288659790258710281080243579797012002612916883428112211025150035697914309660241691457393657048402318491139966484715022195832513840398540212007151779653836402019887338785831547019190269395019023060181755563403503254701715600550561742937016133326471755552100151094145158567069901486077726224471371014648005518307232110134658922175552615401231921321326663845011207944445254134730101284598702375667800975042881936873643009413246906136163240082137721070912559200710347578905213460006466625872723474040061950703856632151800575173627039240280005265341619245420500048515604647625012800424638626126081598003636450606956561180031451370198700088400228847004844610009002492691295106274030027124728841657852800286057746593198065002,
  660939294047111260571354576946107515505527297279959401145054540733820130150800531052608107286439405120129588830259530050378050062144792980496970534511423534304812613511598988896046223925866972767170453898612233978626104466540525723310204043111290737428914840411823255436721285004029245784829366979039459102708954314820387049888584989853203710584403516498815035155288201728327090342225175596549342003331124226916590287032424701795254733680315650031140080589903073234381435468495029924225605846130010281134815156615629202613546416685409072025157081536449125610241767893473247808302319294072741708911022203990992656107600212087243998293314502020646071388312280019197196166052790820181816418717573520301716114267402521787016137486367639148670151126399366893928901488467598230045741014664890578530101950134772404663476469801232644921828630144011212308849278479050101309416352197489800976368345576147685009419867138240287060082168489824780327000710479871480004692006471851198935289850061969502765575247100575783044767841224005267096720196814820048559624680231417700424731855553080059003638026010015442430031453209639752427000228852574116944540002492345051292445090027115025893588310100285909896333307950002,
  724462417659229510571482230986746706805529818762785396217054589673949738129930531145917662220370605121876610706545167050410159737047027040497549679674862962604813638209213166300046241704461785004070454200971080617182904471578949226982450043119513717605785480411954636998275978504031299829470550209039490511151890226120387519377448377946003711270077496130384035165066961273325360342361279989277606603332971872987257217032449149953401510840315965141068856268103077187671422392906029972466001074806370281192025560904009802614205267818353902025164442959322432620241847617335735697902320130119143087279022212471505453801470212170356332140392602021432078869433623019204359779628684000181879248257312016101716643752768121444016141766707200356780151159531443748699501490918378853635543014682176839429996570134888388433164074601233383231538126215011216754523409265170101334653955264417900977713995532078591009426577047527675990082199623837436471300710613514202036204006477121204156363110061988431487748723500576395673864416514005268858209118295730048603732990807160300424825116372848041003639599101515317660031455041921304551400228858044688808343002491998725272236180027105347567270511900285762552976300019002,
  793953592874637830571621639628908720405532567723541191628054642938113470866700531247297985063160405123771498664431113050444927666893109470498175699642082707304814743952739611991046260856462460789440454526131402832035004476988084010469585043128326656787809740412095204355463020804033493738481798247039524001060835538170388019126343680927003711998701337252065035175440545111495760342505417407545152203334925236779898718032474952969738366900316297147611754941603081345855517961042029102312034158626920271251996644672088602614894738144154190025172133410284797260241930763174533164102321000571765693942022221286050453185660212256595944494795302022246280714186638019211767801300704470181944111600737704101717189454725551205016146170700907588570151193563246276349601493431477698178105014699872882637705210135006922605805359201234136513572091290011221282779141315300101360317552946411900979080086776398802009433377608760347960082231126431647990400710748516933160308006482436133030533930062007490487773774300577011519281074641005270626080620960040048647929183489381000424918407681610412003641169873788550140031456867058267140500228863417101591439002491652321770447080027095693780111601800285615713924193343002,
  869960637229738340571773859898585345805535564194035429884054700899041791651340531357429782180579005125826449873759382050482568205207782240498852287639144311204815936978224113136046281485016299581440454875763755362187804482794410107044313043137770615356447200412245580032269248704035836735230918871039559705905846562770388551020601956399203712772873024263410035186443855404193900342658044667647867803336990139253605414032502183002109498910316646920252489744403085719109316080542029107630418180358100271314855618761594602615616183870240188025180166876012965560242017470361792078702321906770772235355022230447045935528360212346073558839956002023089625311555618019219428020932439730182011069985896051901717751833026180073016150701637213729190151228517123461268801496008333561465605014717987452113762110135128057143247661501234905035073764822011225894945643982450101386413256875368700980466876767358089009440269804327403200082263000949501492900710884889571257373006487796230488919590062026680229258752700577630585919306048005272400329209991630048692212861876576600425011728578962925003642738319262386400031458685065599244500228868691894150696002491305845464291780027086064449793633100285469376596652921002,
  953080470456323490571940041593496507605538829926893306969054763960791206175700531477049706107383405128054641365455010050523312529029416860499583419932516925604817223988128573206046303700795447695210455251657493285095304489026242064257314043147889423091187840412406427401281997804038338631457088740039597767427844127650389117058951956641303713595342081013552035198113766797269430342819643574875101703339172709255685173032530915894632746970317015371324737174803090318091552531664029113213835482897220271380735276610150402616371018287035857025188557906817805120242107883636573270102322850105535506544022239967343989115860212438903568907150402023963090795816354019227348458819743150182080186353158681201718331359382214400016155362884259047050151264415925965015501498650414966183750014736529456793080910135251842860105487401235689067262955876011230592369947028120101412947249540426800981874625465398805009447254624274817660082295250752422687800711022642050113139006493201741744070570062046001174786731800578252878629934551005274180949285197770048736583629043988400425105078167879254003644304430458409430031460495958307206400228873869602817643002490959300983832280027076459494273507100285323538430841464002,
  104396340956933170562121435225095369305542388539669092915054832561309491821580531606954833056788105130470306636793036050567409923046078960491037337691071353204718612185210787073046327622529635035290455655728964280390904495713852080530872043158729859980099160412578453275857017204041009863531990766039638336133243686240389719360094995040403714469018081204586035210489233607862230342990722236045866803341479399134751837032561231357950764110317403458029834725903095153965981051960029119074920191685340271449774226855286902617160714043362851025197321638094881110242202153299421092002323832016333755663022249860244672350490212535204151882083102024867685910307572019235537371965666740182151525388496395401718928517749021233016160157891606901900151301283016134778001410135922069812178013755507973265136410135378331436008273701236488885486778366011235376417127796880101439925784885907500983303595348850366009454333066335121260082327879221195276700711161784339294660006498652912284127230062065453785903155000578878402213073434005275967935141551930048781041087558983800425198455554717855003645868199991998880031462299751443598700228878950761406175002490612692912406400027066878831782917600285178196881272580002,
  114331783037352150562319400623315211905546265670716350223054907175205449892640531748007489109694705133088818080268825050615129158977085970491122676569062248504720109308792009289046353377575476707890456090030248102808704410288960114047300042170341848443617710412762410661158890704043861530876977116039681571817090566410381036016964670358303615396979618158235035223611402601311600343171816438106057803343917001111205176032593213157898176030317812184545015888603010023842419126410028125226881140935050271522117135107287002617986805507399902025206473812542555350242300435413545849902324853996100533809022260139510606158670212635097384835798802025804450894218492019244003260511029260182225153567745332901719543804613404221016165090192012780500151339142278184949201410413628035264940013774932248490000370135507575427987006601237304769270852792011240248470499679730101467355188911803000984754051429638850009461506135956941970082360889755979182900711302326444024618006504149987866960890062085038523103527500579507161418081317005277761280969733550048825584839496242700425291859849228566003647429620571784560031464096460106168400228883935901220424002490266025787050310027057322380828254200285033349419665519002,
  125191522585618790562535416257929275605550489147749703618054988316739045011820531901140451482719305135926775666193426050666759977058457440491214854435550575204721723673575432565046381102524769940140456556758478628736604411058807865112736042182778657667206620412959101673465222204046905436659749630039727644116280802560381104186746535099503616382483757732271035237523731637408320343363491095965694103346492664440163898032626949312958945260318242604226042673503010558370940688091028131683526750317600271597914975231443502618850891216218830025216030803173306520242402892012823167002325917592230653696022270819382007708740212738709364464069602026774458392950311019252754874324101850182301139201886567201720177729287942942016170163403227218310151378018128554370501410698315488956702013794811702550634640135639628283000943701238137002370977947011245209931801877640101495241860276871700986226261269015055009468774846334426830082394285776328163500711444278405054364006509693214514315570062104755845821214900580139160943522696005279560980856672450048870214486452937600425385290164558934003648988684999106650031465886099436790300228888825551062560002489919304098921650027047790060190481400284888993534801255002,
  137059569440014840562771089334656625605555089170104156119054107654304899193700522067362553215312405139002102339966934050722614676969553080491314404793890644704723464211189479607046410943854372941300457058265786048307004411884625111179372042196097120779350280413169380637660041204050154130900844414039776733094532039700381176697538740110303617428975999349741035252272114478524650343566341772900626703349213913403453221032662532300903884400318695821908250758303011120264130409140028138459290923006130271677325290492008102619754636417015969025226009637144741090242509691316825180502327024408443922091022281914592177714710212846170330221069202027778814392618545019261801219752936220182379552483359673601720830814211506050016175381229833155660151417935526441729201410990143719642946013815155931441784740135774544350605445601238985872825274389011250262221390461540101523592270904283900987720494993296793009476140218436534270082428070721206770000711587650298535317006515282838505936850062124606212415275600580774405437128555005281367028786092030048914929629563766600425478745617260323003650545386167475280031467668684620438600228893620237240760002489572532293713890027038281788925041000284745126732380077002,
  150027389341304820563028166728737492005560098505775514975054117245763613385120522247764721696421805142334146627962400050783029826049598170491421901627645994904725340514641290156046443058620418320260457597069899116816004412770362038227363042210357865654557040413394157373405897504053620956127371713039829029860857470970381253816539205206903618540100771340057035267905012066092680343780996276995653003352088666168859297032700059275014709040319172996310184523003011710864189156958028145569260004700060271760512464922439402620699775703261604025236428020437600470242621007953104959202328176106708358478022293440383453928750212957614790935396502028818659179277536019271151566543941250182460465533431204901721503595256051789016180747465118293810151458919984521671801411289275266044718013835974709895848040135912378895761934901239851673006802016011255406778430732060101552412966589817500989237025309627109009483603281036192570082462248049006680800711732452235889048006520919106373698080062144590080158392500581412899495761105005283179418639056140048959729869515910700425572225327293889003652099717062029630031469444230884161400228898320483577065002489225714772070220027028797486361683400284601746534880534002,
  164194549684022260563308546823644387505565552704408872080054127671412233382840522443526483679445305145943792981222961050848368093198764560491537962385586429904727362885877998109046477615199789945170458175865449861862104413720239214849341042225625560166672970413634400681078689604057320095719004186039884737223388744070381335826821761060003619719712488084175035284473590586483240344008116337264791303355125254556540551032739632290318126790319675342544167319203012331576249514042028153029200844708340271847648005299224602621688115749095792025247304363408917180242737023186961869402329374409224658542022305412523643747630213073181654998494802029895168323460342019280815454930390030182543952450639452701722196622039831081016186265992983025070151500997579844253801411595875974907242013857277994246097340136053188111791300201240734699676655011011260645061090885060101581710567612630600990776127521748085009491165070739334100082496821237562404100711878694363675979006526602264895724380062164707905224878800582054647665380376005284998144194516640049004614806563905300425665728418036147003653651670759000480031471212753496072000228902926811415420002488878855889992370027019337072104314700284458850481419739002,
  179669419812451350563614292327916209305571490327491683673054139002030607894870522655922971820352505149853580423872495050919020217440976920491663251180406377004729542386666376407046514794081979186900458797536025772262604414738765522050434042241969172765965450413891142039175796504061266625099131755039944070380491281860381423028245372040503620971887197807565035302031866662512520344248399363249836903358332444754223530032781358540271118260311020413473832523502912983871189177066028160855590001644750271938910834109375502622721538145405843025258657807249318720242857925158922086502330621100473706563022317847322949158430213193014364217440602031009553690637888019290802702894585550182630089360337019201722910458247108409016191940789884504310151544194964920245801411910115059936952013879075925327599260136197029133471472701241635254037534579011265978546736975610101611491769348520400992338079545786591009498826632013786020082531793784166325500712026386863462489006532332561090503250062184960142678736400582699654441012059005286823199129861430049049584040544430900425759254016284525003655201240425172530031472974267764345900228907439739629656002488531959959246710027009900466030814800284316436127615135002,
  196569930351591430563947644148831981105577953197104314837054151314253758253630522886332470330409905154087830113467919050995407120747771330491798482216008174204731890893015249578046554788714635319020459465167017285823004415830757233606578042259462249304394790414165479525569886104065476565932469292039100725765121828100371515738413469122603622300934851285746035320636860022776920344502580292071905503361719459024639636032825350604357144640311076070877476540202913669288563927381028169065644137863710272034487593915495202623802002341136027025270508251374406140242983909130175545802331918029328993834022330761651397620750213317261031426574202032163064478218269019301123413607521610182718954465353411401723645681954520648016197775926817459690151588539378995027301412232165161628259013901378831416238840136343960050280557201242553641787803732011271408732129192600101641763342885739600993923161926055270009506589017218034690082567169205583127500712175539951686793006538110242210999290062205347246461814300583347924266719638005288654577021465230049094637170890950300425852801252262509003656748419317348170031474728789036232500228911859784631556002488185031247766050027000487588292835000284174501045447492002,
  215024396423353090564311036407805642805584986664684366223054164691043787034520523136244540070943505158672782463597887050107798217538581340481944423459192277104734421153379755240046597806406335627430451018205931134586804317001358318335081042278183207087185550414458581975676759404069966943499177716039107454124725721820371614293686045589303623711412223207447035340348754017580590344771433527090296203365295998450540948032871726707072087820311134646514879520402914389439664986866028177677351648332070272134572963535838502624931548693492506025282876381781014500243115177736217180902333267111235845283022344172956792782330213446074581954192302033356988279715292019311787983049910470182810628097799927501724402885964192144016203775571332323330151634058659513638001412562202407990082013924197231206184730136494039919786384801243490173176024499011276937133619434460101672532135643285900995531657850864045009514453286629841760082602951038063539200712326163879523214006543935555738753410062225869669382010000583999461535576135005290492271345239730049139773796648325100425946369259624642003658293200781811560031476476332697074400228916187460378908002487838073980047670026991098359315600600284033042823125431002,
  235172409986388840564707112689020017105592639901372292028054179222198816109810523407268766348710005163636744525109164050116723363675911610482101900572660993004737146850902166550046644069290324868380451095174388493097204318256062039907772042298215647185649620414771693391341371404074755847424827836039114617808863619590371719050247303245303625208136519498237035361231064367664020345055774972512134303369072266764616465032920610988798804150311196287195426594802915146010705758169028186709505571323750272239369986471526002626112301630828917025295783700400152570243251941248947927002334670330459413479022358099283199320960213579612899043294802034592652176734190019322807107818569920182905192772039858201725182678143730115016209943989591297330151680781253779800801412900406476183741013947541836826222690136647328781183840101244445163055982219011282565287350200940101703805071991725500997163853168345941009522420508474736380082639142837357500300712478268932745299006549808749377991510062246527863101581800584654270589640992005292336275477186830049184993516487312100426039957175461410003659835578253796340031478216914169338700228920423278383688002487491092337547710026981732699797661700283892059064951049002,
  257165806956214570565138743619956584605510096621162520084053195004901780724190523701144175806045305169010248371541357050126368725347195360482271801127374827304740082669960582883046693815353211132740451177799735577707104319600733934348412042319648686106062780415106137615019100504079862495955247827039122244066557608380371830385231777625703626796199705528032035383350816550016140345356464168491342803373058995313668776032972133789089736570311261146800032367302915940766143134692028196181737829987710272349090412027409902627346472932116622025309252555479333050243394417847497717402336129742403445217022372559289976502410213718038973327003502035871423859430298019334191793122182270183002733238846979501725985681773222012016216285548462947190151728736230811499901413246960655082289013971423556895282010136803887668980734601245418930942196541011288294749454788520101735589153876467100998820036402292391009530491758954353020082675748178726622200712631865431587317006555730071049716550062267322278125500600585312355719936931005294186582693952050049230295928718941700426133564140303702003661375545256951900031479950548911658300228924567747720148002487144090459073750026972390530710655100283751547391187064002,
  281169715213169290565609045890160813405511002337191401168053212144312115961600524019749372158569805174826221286965659050136790906714460780482455079113507846604743244367314460922046747299532857566900451266485855102922204321041636250140149042342577307972760860415463323284646842604085307303975557434039130361794899965140371948697912019110803628480983591833496035406778732244100610345674406531461456903377267469208561480032102643194289874510301329386606506197102916775552138765576028206114554855651370272463955049588806102628636365127034165025323306173028065420243542833898040788302337647476001885858022387572271375471950213861521056462226902037194712776115750019345953360970570340183103336540776153001726812535899362512016222804717655953910151777953293395990601413602051908762899013995853499617579870136963778626833576301246411801065923526011294127096258801780101767891461443524700910050049876799999008538668122274635590082712770656956032300712786963730604551006561699768885803910062288253363789907600585973721166430052005296043186173379130049275680631308856400426227189298127238003662913095402811130031481677252417881600228928621375033020002486797072441171180026963071773299048300283611505437925060002,
  307363690091499650566121402822844879205511987399645684448053230754203596760520524365113444125475205181120168610596339050148050841537317400482652759770532672604746648848154714406046804794889976806570451361664615828117804322585453940914813042367102738450341530415844749085457184704091111954983445011039139001635233979760372074410951061648603630268175715762109035431589425281575690346010555704659128303381709554713660428032108364909032555640301401175629178675902917652300165860710028216529374645511380272584194136531686502629984375020836890025337968689361251560243697424242880828602339225736185436742022403158176715609230214010232819026993002038563971312698676019358103458561669390183207092068769873001727663895696836049016229506071892637420151828462790346912501413965870940942894013102084297591773390127127064721534152801247424102431649248011300063924482973710101800719153667722000910220553418812666008546950690673893520082750213886365573700712943574218532073006567718091223090950062309321568250611000586638371118011992005297906078995064900049321147221891479500426320831796356691003664448222390262060031483397040216134600228932584664545707002486450042338508330026953776349079847400283471930856955243002]

/-- Rows from 600 on. -/
def besselRows6 : List Nat := [
  335942944466314350566679486622818835705513058593208943355053250957651833696220524739427702743556505187930370152589512050160214115214145200482865944758334182604750314247386062352046866593858219070710451463797752740708704324239322306043603042393332841700445490416252009315896432304097299477238095183039148196074742700640372207971723073869303632163786059313803035457861607563352930346365916024019026003386397727931820209032114393600045965220301476690973383069002918573030767334319028227448565309284200272710047720260529502631392997348305349025353265184776337050243858432499091956202340866806425241876022419337631155717980214164353512789800102039980696002658814019370654066870495710183314091620025370001728540432837086139016236394293122895590151880295728966435401414338612260371148013104640350261626430127293810057148185101248456168874079457011306106851447304910101834079468983357000910393543930855770008555340564450715080082788081500820346700713101707318142278006573785286597464960062330527338471705000587306309712484345005299775254140917680049366695297784178600426414490785869626003665980920005016830031485109927867893500228936458118068571002486103004164255980026944504179842324300283332821315637226002,
  367119681118905550567287282433797903605514223268453209308053272887775184988660525145058309368974005195298091159537041050173351310096985720483095817692706215904754260016490488468046933009577845836100451573378869576327204326010856380090154042421382541742911360416686799785760551604010389432431807094038157979553738051180372349853705757357203634174164645400292035485678305429388910346741545104851603403391345104843362793032120745090993441230301556118205408625702919539857471300735028238895485161307930272841766054884422002632864828561205392025369221718401101170244026111367009053302342573051355933636022436131957076152620214324068137461257602041446428768272759019383617509444450100183424429457146950601729442835864601589016243474172779189930151933483787715172401414720474247185627013107254680564584080127464079789307044801249508339115625015011312257515276515940101867979725917297700910569051351428069008563838851991735540082826377153740625800713261373486101037006579901603737948720062351871120214223700587977541036545401005301650704495713270049412324456001269600426508165421000236003667511182119085930031486815930967064900228940242235007144002485755961890467010026935255187647693100283194174496772286002,
  401124535668295370567949114348412237105515489387848321508053296688533122045950525584559860072776305110326780887665654049187538375712843740483343650070135885904758507016343199245046100437731840062080441690935571376226504327908182178060388042451374269669691250417150924065669867004011092246033400481038168388578957969560372500557948235940303636306020056786339035515127086989239250347138556554958250003396565472760015512032127435987682758750301639651738567101402920554990870163246028250894524416626660272979610013059612002634402570753837420025385865364250120500244200722948869755002344346919480328965022453563196088415930214489567612041214602042962758193820836019397006461409407720183538202368608872101730371810580853335016250750614073229040151988059329092774301415111659220248444013109928482330867420127637940139653589901250580956824386717011318517575106814460101902427323724470100910747105894526671008572446669799249130082865104518111085200713422583212822385006586067291560778060062373353358024884400588652069125778185005303532422847654970049458034293267972600426601854859542922003669039002690250890031488515065139077100228943937512370437002485408919448447610026926029294828800500283055988098476655002,
  438208139010859610568669673525294826905516865575415219399053322515586382418390526060689996843629505111188745582678752049202857025635170730483610807608428994004763077616376388808046108105599612717600441817031735250321904329939969909692628042483438438242743560417646300108062372504011841145005512512038179461843195157520372660614618366875603638566438924110262035546300300944962790347558122820090261103310207332325738128031134483715057019350301727495236038920502921620742869769954028263471148551662100273123851513544397802636009035731397995025403224248529077700244382539077918799902346190945958128504022471654131689169310214661048950877031102044531320831521786019410833958691125330183655509730554515001731328080436017872016258228634335011460152044055412732128301415512373505470284013112662970957545110127815458410443348101251674370672641861011324888711293983700101937429743025780900910927738051236071008581165142518679010082904267286489425200713585347022322076006592282599163487430062394974495224914000589329897964641851005305420401888931730049503824406034208800426695558262755507003670564375761538780031490207346039980700228947544444779275002485061880729130560026916826423989790000282918259834056290002,
  478642808914162330569454048579501642505518361170304098239053350537223561807320526576425121046523605112120868100438361049219395162867697610483898757031485148104767995800511533349046116342979224471920441952269928010038804332115469282700272042517713945494553900418174967261001682504012639055422250718038191240351597758270372830584633601140503640962906431614168035579295327462608740348001478167921102003310788388665223229031141906555855307940301819862031191500002922739531115352403028276651943392239090273274773965030743402637687149226028206025421327588227264010244571841658294267202348107755481031705022490428312575998850214838715444551219102046153802540956706019425113407456574200183776453569957916201732312386928624408016265913367394891030152101505808710061701415922827505135402013115459383742621150127996702999302125901252788934395833974011331372625622788290101972994546448414900911110978591317776008589995402965893060082943869171014320000713749675472069645006598547775818985620062416734973898954000590011031486464778005307314634216279530049549694390488407500426789274795362482003672087295460699250031491892789355560100228951063524474619002484714849583440730026907646498005744200282780987431882530002,
  522724381169289760561030775842528376105419986284599409489053380935359137088830527134977289969832705113128713026602161049237247335728936620484209073328397878504773287280307923562046125190987857073220442097293979859619004334444547021923575042554348709042105210418739093697269860304013489083033649618038203767554999828550373011061379725341703643503327891546065035614214841674174870348469921816975260903311401316809373968031149723691014845240301916975566089222102923913883601211797028290464661993934470273432672726835812102639439955265575931025440205731039825420244768923016024029802350100065236744629022509910076642705740215022776845719326802047831939862758682019439858593779889050183901138629174184301733325490013264750016273810066009334940152160445011077520701416343235768238815013118318980223353490128181743414141054201253925006852068416011337971041517700080102009129379268514000911296858564800513008598938592154364090082983913903412726700713915579152839259006604863070969633680062438635234884024300590695473573439386005309215112331542400049595643842571123400426883003625557873003673607755999682150031493571410800455400228954495241325914002484367829822659610026898489440022338700282644168635269286002,
  570774191522287450561123678776395311705421751865676289426053413906608276937110527739812383051522805114218274728793349049256515226360165630484543447519041949204778979615803819704046134693625738594430442252791723890288204336937726738797763042593500232922468290419340984282454060704014394523922107883038217089490657918210373202672522033447103646196051440643042035651167090418842040348964821217243262303312047798534070002031157955241889303570302019069848942712402925146443471378311028304938273382047970273597855587056427702641270620700262153025459890196662562010244974086261470316202352170687964423298022530124575672332050215213449560021779002049567521427362334019455083693537732600184029672431905883001734368168516508023016281924104331063090152220908251612212601416773817061847484013121243042518846910128370650288230229501255082952082115670011344685704254943040102045841970056208500911485409303570933008607995859322177460083024405235006525800714083068688559175006611228734221318200062460675717758580900591383228056619503005311121828642234180049641672357988607300426976743925008003003675125751674117250031495243226117289400228957840082839529002484020825218786230026889355173455456700282507801202351169002,
  623141220483736630561224762542432460905423669763457237471053449663444186964380528394669630529235105115396009655600647049277308174122932520484903694960422288704785102344557045580046144897972286416060442419497911709086204339606231293406589042635336208860710670419983088907037644304015358875768406676038231254930789386970373406081913701757603649049891914653147035690266182860245000349487615489509428703312729600829987239031166622314360976020302126389931273998902926439974018734920028320103013220837690273770643258809419402643182439892603014025480413719503356890245187645663569406302354322535104161122022551097800746572520215410956842196050002051362389399622185019470803282538937260184162165350612749401735441220561163356016290260980424254370152282931513796740401417214794443497285013124232875676957130128563495395432075001256263139369924577011351518381175861910102083140131322998300911676662422964824008617168361958879860083065346936718531500714252154736159920006617645015337527710062482856860831638700592074298715919635005313034775462100960049687779532226273300427070494868853979003676641276862792720031496908251075808200228961098534167094002483673839504894930026880243621990803100282371882905962979002,
  680204414061076030561334730577905850805425752802943870670053488435444154407020529103582603839925305116668870995504773049299743736304794930485291764230306866404791687119424170097046155854395184371470442598197316156482104342462027799706049042680035153989098220411066801130887936903916385849760888729038246315539328400190373621991606377271103652074155959529487035731632395645852490341003981903073020503213448580040372922031175747044927655410302239192405604431002927797363890377027028335990436484144780273951369895201932902645178839576111329025501810292855639480245409927036223572402356558620043198574022572856608390683310215615528997518578302053218440960127353019487032346893407390184298730675392787901736545463999036880016298826318825525580152346551547025303901417666395334637798013127289808025549230128760351665595590601257465943303648251011358470861901612860102121031760171484500911870649823358689008626457265832173920083106742799077839800714422847985421268006624112164233428900062505179101131986500592768689280116711005314953945011684710049733964960562085500427164255635714102003678154326027139400031498566501472031600228964271078113963002483326876375488740026871154709583508800282236411533520154002,
  742375194475503410561454345347723988805428014862426460136053530470630904852970529870901774125708905118044345863221075049323948288714538490485709746627054622804798767855651725245046167616773219810540442789728032724592004345517875433274773042727787087150565570411139851841390680203917479383183154016038262326037336795470373851143968236484803655278668440715147035775392493304983460341062302529312275403214206686190922335031185352648848337790302357745924503237502929221632507262595028352633472202035630274140383623696837202647263383888471622025524115214580609770245641268137211889502358882061461600196022595428747473437260215827403588708365102055137629824054192019503786293625322520184439484684362986301737681736852330140016307625873151387170152411805881042016901418128851595136729013130415191528148700128961293200112448801258691743837183886011365544958549176990102159524838947396200912067403691761671008635863745014452170083148596632224533500714595159158817799006630630430969938020062527642874397468000593466403426853450005316879329418887130049780228238079832500427258025407685999003679664893710712860031500217993127409000228967358195147657002482979939486851690026862088360457720100282101384886900552002,
  810100176019971810561584433175180980005430470957803860137053576036916362708020521070131875271960105019530495192486684049350057668921345300486159886327091494804710638088788934873045180242733757347130442994984991984354404348787376210224743042778794246039819810411217755022437135603918643652717498018038279344377529374550374094323915031325303658673800214861378035821680064613919190341123891074496162903215005967520262895031195463470435277910302482331741867213502930715935706507547028370066480360728430274338047100560884902649439779585065812025547365134346365800245882019079997157402361296086780218687022618842886882183890216046825648427571202057121967798418488019521080961535807380184584546715568547201738850897763830207016316665528752893240152478732840613990501418602399598856087013133610402144025880129166395287636196701259940926352229060011372742505948697520102198627435893935500912266956503407696008645388981909166410083190912265913720700714769099011363342006637200065747798610062550248615064348200594167444782644128005318810920719534840049826568959682329200427351803370348616003681172974538679040031501862741887989100228970360363406292002482633032457395750026853044499106167300281966800782327279002,
  883864102392132130561725889458008798605433137333478492799053625423655419820730521159989233551446605021135996526623891049378217865076759700486644591244188377904711456513777338768045193793905780047700443214923696066180304352285028915690344042833271847562181350411300823028561081703919883088503280042038297431928396561790374352361259909826403662270497331367904035870635875689741390341188923902143095903215848575219907886031206105035583439860302613244277335270502932283571614985280028388325311035752160274544738086105720602651711881438907201025571598102473468080246132542758816227002363804035713835571022643128643993508670216274047897516945302059173526378603306019538932632320296110184734039240449912401740053826456042971016325951305418208440152547371560442263601419087280310312114013136876840192753410129375734419965463601261213881720856005011380065361862137750102238347705808387300912469341023347701008655034167277034230083233693549518909200714944678330453888006643821318901649330062572996756256736600594871816922881440005320748710857943570049872986720104496300427445588712763950003682678563217299120031503500763623595200228973278058707131002482286158868005800026844023050289743700281832657050252680002,
  964193023102778510561879684299670629105436031560325425257053678943317865667950521257207648170132105022870189911342886049408585753454766940487166444637568219604712336229277055655045208336189486098710443450564193018228704356026286370663309042891448893924119380411389387676395095203921202388991474734038316653668431983290374626133188084043303666080311734332583035922408240609370710341257586527424703403216736768392917298031217304106632076210302750791704776881702933927986763211500028407447365841123660274760850041455982802654083697833237004025596853620438004990246393215287452566202366409363932449752022668316613960562940216509330969107811802061294438385062708019557358041945978720184888087938897621901741291424199426163016335489360123845730152617762000313927601419583739362432124013140215930723284840129589388308092750601262511006368608236011387515407203273080102278693890701051600912674590308042279008664800500262093100083276944352034786900715121907935709678006650494440894109040062595887729776133800595579523371847679005322692691687484540049919481113926380400427539380627478707003684181654533419590031505132074227012000228976111754554962002481939322262381970026835023939037050700281698951535243342002,
  105165772792200040552046868588089346105439172641271397987053736933287219536050521362375036652549405024743127108237937049441329888054259990487728217518919955804713281699701474203045223940043489549640443702995303689162404360027616236838168042953569027110100440411483801417014541403922606536638820696038337078390998202590374916566862713866703670115433538813284035977153410386226160341330074072914350503217672919240885658031229088739656922210302895296565828653602935652782448816575028427471661780121260274986792747601930802656559396553221098025623172693084602560246664426452099578202369115646833749132022694438399838510380216752943638754155602063486899641108810019576374392294706010185046821775924865701742564614289875127016345285989835285710152689944960498428401420092027135419178013143629123887582410129807435898419252301263832702338117413011395094546258997080102319674320456371200912882737706953986008674689188417570970083320668562079256400715300798678815604006657219682309846370062618921966091005300596290567602725090005324642854971150880049966051735586084700427633178310525752003685682243353959940031506756689613179000228978861922150712002481592526147378160026826047090643928800281565682095866357002,
  114687745979025130552228580556435089705442581125059155781053799757795833782860521476125065750500805026765624362369280049476631345830937940488332881911644187304714297705491629345045240680790738040930443973379116654841904364306565570677731042101989143454918530401584438576462159103924100814487262869038358778920390944050375224642168688245403674388724958807453035103503598117498010331406591746071178903218659518489284513031241488344295497320303047096409491449802937461721359256169028448438897586316250275222992947520237902659143310783400029025650597882603514150246946580178735908802371926583429893837022721526643570189390217005163060733014702065753170692720317019595999363076957240185210373079988930301743874342535623453016355347634357765560152763962097391483901420612398836738338013147117895318849000121002995738913743001165179377353247064011402804706911961620102361297413496350100913093816864139908008684701447731603680083364870087894901500715481361443360653006663997293849659240062642099894326465300597004953037610291005326599192382123910041001269817939256200327726980961425216003687180324625404160031508374625718396200228981529030399907002481245773993336790026817092430673027400281432846604576489002,
  125052392819581950552426052863202563505446279228814721982053867810006309223580521599140617400859405028949318973231794049514684631362484270488983625019101008904715389364837211141045258638944328373020444262955767628377004368881829350053496042109069180893107280401691696668275687903925690823676769363038381832339690391360375551394601310076203678913755967979271035109622932261403170331487355339449880703219699181061601294031254533746212051910303206544458838509902939358734463754858028470391522646498250275469895012171291002661839945317738995025679173364327376800247240095015444483002374846000351807459022749615057854510840217266275010663373702068095578571319892019616251124022467110185378877622992580701745221577753717049016365680879237973830152839855939409777901421145114582236330013150683746514395640121025703424678207001166551444883761963011410647840864536990102403571677446166100913307861719843972008694838502652775240083409552857349738200715663607144676019006670827526324554680062665421942254038200597722683047529789005328561695504339510041005942003953833900327820787783185692003688675893373292320031509985898499534100228984113545921231002480899069234422550026808159884953282600281300442947604620002,
  136332564671328900552640620231607596305450290970080594825053941514249982972140521732157510126174405031306729935388772049555698645003206420489683864362296284204716562156845687162045277900554472881900444573048520767939304373773323209671904042116626336529644520401805997782047628103927382501942118840038406320231017893800375897918307233118103683704841777979134035116091602725662030331572591754669672303220794652013154799031268257252312986180303374010305925481702941347928184847226028493373808600381730275727961631208726302664653982989347462025708944984404955600247545404630119559702377877855974264104022778738458920722190217536574134598063502070516518600493685019637148347353291610185552474701997323001746607312276227222016376292458717441140152917669903139820701421690439478407677013154328205223193490121048874922295117701167949324210526687011418625923864101700102446505709802013300913524906512089182008705101586115494940083454720817937346300715847546729672051006677710630649829640062688888536281474000598443760952457681005330530355833057780041010621691011220900327914597982305108003690168944701716890031511590523933259800228986615933055057002480552415268951510026799249379579462600281168469024847090002,
  148607262021672120552873727691334660205454642309026390421053102132843401789820511875968494176910005033851322933132251049599897718852591080481043726395133301404617821946253084064045298557577945807260444905069170325455804379002260635031773042124691791869999760401927790052262851003929182143146885433038432328928847493680376265369285355464003688777082223162799035122928838208419490331662539551220503203221948812735916812031282692718827951160303549880636034497302943433591860252128028517431923715193160275997674529263606202667590291327149330025739960319410787890247862958324017784802381026244665135364022808932800232163190217816364204745789202073018456247640543019658710220545139790185731307222680773301748032562466366743016387189258738397420152997448309744272301422248643705819794013158052825838148080121072518637119769401169373440491235628011426740955929660720102490108198601142500913744985778269650008715491939565199620083500377936776342100716033191176673986006684646857839156610062712500101442686600599168190021335604005332505164775428030041015308838511169700328008410768771371003691659473792815160031513188518015261100228989036653871997002480205815459717260026790360840911652300281036922749756088002,
  161962140923694010553126939468889274505459361301600477924053110774662944541960512031427539987434805036597579992815928049647522725147905490481124775155909086604619175009775824518045320708271419650770445260523782168177904384591234878968161042133298702592778440402057549211888213403931096417910619296038459949787054340280376654968755748208103694146403144674766035130154886314043360331757449521231230803223164687446140847031297875622376430030303734559982427549702945620205506205895028542614010136640230276279535208694139102670653929447012931025772268737951391420248193221561621838302384295401162251713022840235207143718520218105958381984157202075603929021560718019680956459382928850185915521784570952301749498369244677204016398378320002885300153079236401629081501422820002603709768013161859189793137370121096643106409313501170824224826674445011434994961579781620102534387923094045300913968134356742166008726010812983378870083546528200609167800716220551495256447006691636458998666180062736257061387728900599895973472094009005334486113651059420041020003405845558100328102225356062974003693147475906268940031514779896759490600228991376168181489002479859273134315420026781494195574747100280905802049231285002,
  176490060103351460553401948576265503105464478264441858438053120130185339269790512199454440876736605039561074117054576049698832261994825860481211953716998885104620628064209217728045344457610187019130445641018795855245404390564305879923669042142482319494328490402195780235428252803933132395388125569038489279460416272650377068006705088980803699829599871198327035137791065437097870331857585291373084103224445449967088101031313843134144355400303928471512829022802947912447893785148028568970264121281100276574065719721077302673850155185083183025805921464330475990248536676517298318802387689705081421648022872684012537769990218405679485328341402078275548417015215019703907321316642580186105268768091017201751005798625459089016409866841085941690153163080359374935101423404796755766397013165748905964860450121121257001046441601172302114327518109011443389990061864950102579353754418837900914194387388417548008736659464912433710083593175615800262000716409638726076748006698679685321037340062760159838372860300510062711447167579004336473193692588120041024705352399623500328196040961149397003694632946378802560031516364676197411300228993634933540367002479512791585464250026772649370457947700280775104863512234002,
  192291671920949960553700587151345935305470025952431190998053130256905966537180512381039752375169705042758549246876817049754103921673273650481305713268135014604622188296384776461045369917733853937300446048267509166657804396947092476998986042152280116593963420402343019076413269303935297566262793007038520420201320633150377505845617478333503610584438289819401034145859819180239630331963223953122059103225794430819645848031330634197300222590304132057848903052602950315204950159683028596553019358848460276881809458898261302677184432481291067025840971644337365890248893822639243999602391213685559236100022906318793463986130218715860268522977502081036001907304229019727583619123641130186300702423448107501752555942263616125016421662181603640150153249027318936372901424003312077109564013169723611079535030121146369127280486201173807552181664641011451928115582738800102625014656277771900914423780318351525008747439162480353580083640324208333557000716600463940707141006705776788079591020062784208853250714300510136161613606207004338466396046245600041029414637553187300328289856804491185003696115880623682060031517942872377250700228995813405261431002479166374071321940026763826292714222900280644829146071975002,
  209476060612264650554024837607428442205476039749823756787053141216835286218410512577250092106801905046208005921253199049813635647099609890481406537293984368804623863395105508469045397208420686475900446484096968267192604310376687023364176041162731926808956340402499834504551682203937599867019128822038553480172466020700377969924399945996503611220942587219253034154384773424477130332074656722656719403227215124634164285031348289607785294290304345781920039583602952833578497152249028625416833496870170277203331996899369602680662439021267583025877474413224746450249265177231228762302394872026034386103022941180408808934510219036843703929258502083888054985937372019752006734883728560186501980961401015401754149918012090129016433771865436830230153337125389112095301424615839902480992013173784970124487710121171988428486055801175340987722108256011460611437540577980102671379685615864600914656348897335034008758351181425217980083687978023809313500716793038241465719006712928018622381280062808404525460512800510209948153029913004340465711772428680041034131220681875500328383672110040121003697596274130219200031519514501363269600228997912036422040002478820023815802400026755024889759775300280514972863511516002,
  228161431495156300554376844653537436305482557875975527277053153076844227180750512789233825808393805049928793028267633049877747182391912820481514943820073480604625661585185717583045426457592393853080446950455288044109204311105267519952679041173880085630960290402666830048057127803940047705563012451038588573776387949800378461762512400238403611894441599163244034163390796175496660332192189631722349703228711197897382939031366852098617775750304570127852811970302955472895339919654028655618577983702410277539221936632980202684290074145134140025915486965943705240249651276052656519602398669569171307225022977311038022068330219368983273882246102086834553258486397019777198634273359700186709266645941457501755788870490063441016446203584011392830153427423669289979101425242677075659150013177934676764682870121198123986939324501176902876495353653011469442080758152750102718457993301677800914892129183484112008769396806119523630083736141127440337000716987372761246397006720133628366300110062832747273018396900510284071366852853004342471131846267910041038855061158328400328477486105239085003699074122463273690031521079579235029000228999931277872704002478473744008887020026746245089273501800280385533995455435002,
  248475855107351980554758928251750025705489621606746720959053165909035295045120513018227166828783905053941706068681058049946781623874088870481631487810326412104627591663729686483045457801851238529920447449419428591891804311883541395887846041185769583259250990402844646046954291403942649988261710137038625822002678675440378982964312242786303612607010694090055034172904060315278010332316144250849478803230286497048887948031386366427856330770304805601897520389902958238716719032735028687217531350071620277890091802731081102688073467031902945025955068629706021450241005267393747995602210261132193006512021101475422092527710209712643269697533102089878424585734142019803181881185488130186922725888924560401757473971662108865016458965199635848040153519972267470273901425884126040111326013182174453764225900121224785025612063501178493680330371733011478422195717397450102766258824810131400915131157543828857008780577329594320000083784817604047481500717183478663347456006727393868791175240062857237512507798000510358531551401733004344482647158196570041043586118353398000328571298021021724003700549421262759190031522638122086678600229001871578245741002478127537806934610026737486819196439300280256510534448378002,
  270558070541500790555173597582669016405497275512745585579053179791141260547880513265560718332559205058269092380830104049102110707826808820471756763726140094604629663038791914937045491387051477299850447983203455331545404312714798033317969041198448225671148950403033961823475490303945416148479392392038665352793814614510379535223624360910703613360837447961581034182952109393964070332446858446374084903231945056942134485031406879470374038280305052733393288442402961136848139706249028720275476053314060278256578963489911302692018985168489791025996280938945672590241046994543251923902210670246078649571021105355489863384030201006819909851030001993022681279256742019829979652681702650187142529346684746801759206421428470445016472064748897174070153614822318570646601426540494930897021013186506053412893130121251980909983560301180113867408101444011487553958795308840102814791520907429200915373470655901907008791894053563175470083834011558054544900717381367141299189006734708991433878350062881875659069915000510433328997919167004346500248514519910041048324351637338800328665107091811999003702022166243150470031524190146026237700229003733383963785002477781408332986840026728750007731208700280127900485852555002,
  294558352566244190555623566095429594705410556771565900822052194806953422118140513532666489437798705062934963805837388049110111843526324100471891408257551253304631885770570387383045527368907257535330448554167311852158204313602537912699572041211966805136282560403235497975984195903948356176687781101038707301430550077030371012032854772087703514158227481482478034193563926602933690332584687172768440703233691109685681924031428440313599788200305312075773235070702964173349592420608028754856799012708630278639346586376785902696133243112612391025103918771275358200231090368545574986102211094833710671222021109375945561726140201043603759813365901996270422350596199019857615754283379960187368852018673660501760987448226660443016485510446115691530153712026003016661601427212097667835639013190931257957725920121279721149870518601181763912331497574011496839572501170590102864065518338053400915619105509326095008803348288445954600083883727113482492000717581049418690319006742079247882437330062906662126394272500510508463992567194004348523926637985310041053069720380992300328758912555523668003703492353192991610031525735667174901900229005517139248500002477435358677073400026720034583341436000279999701867746242002,
  320639447468337830556111767724257765705411455016400627966052211046781576294070513821085418656417205067965117304078252049118723926211906000472036103237716661104634270615293663901045565913639219726350449164826136250913904314550485732753295041226379280709003450403450018803201656403951480652235621794038751810937883326920371074016651032125603515001610588963250034204770007076251910332730003301855561003235529093880926165031451100357390220990305584207611300575802967354546179681458028791028595968608940279039084628251762402610042311155912699024108385513486171940231135450997513928102211535448268019315021113541576292909880201081655736012696701999624835815203401019886114635608718930187601873348157393701762818309644558753016499310686859879070153811636565621288801427899254049952195013195451880039733930121308015401275046401183444296196127053011506281265715098860102914090350513771700915868099407401125008814941353392413690083933968413943020900717782536748993310006749504889770153050062931597326709344700510583936816430899004350553672168350900041057822183956955100328852713653559430003704959977974405680031527274701666339400229007223286129126002477089391896512170026711340474751190100279871912710823070002,
  348977582922681200556641374359635105905412427892974836244052228607947979211960514132475440287589905073387264067903014049127992382845486850472191578752637587604636829071972470159045607198662191940000449817860153533231304315562604319166393041241742969262425040403678334865871062103954800776864957596038799032512650741990371139672958482604803515893547172794035034216602433674191210332883198490547253803237463664273279847031474913418201728910305869733712364688202970687039164190796028828860779802624570279456510861490559102610489572671965079024113035183625488900231182305670862838302211992661541577455021117857322263562190201121016906126931401910308920105235662018915501406362642860187841777325010902001764700293045207274016513474051522005770153913708334757211401428602289851214884013200069763135752520121336873468250872401185155506661316111011515881293927914740102964875648204698000916120489968689489008826674576305609970083984739622631502300717985840415388638006756986168769721210062956681670773278900510659747745522326004352589475662954820041062581701740746600328946509630810085003706425036522609260031528807265646011500229008852264451126002476743511016208680026702667610944385000279744531058292559002,
  379763557596087100557215814668590952305413481452728771415052247595317742131730514468620131846750905079231167711848683049137965926990756350472358616458811142004639573432196922283045651413316503874000441051612517851718704216643109367847863041258118747658176900403921305693368934103958328410066656679038849125973856706100371209212007778112503516836734998133409034229094956409265390333044684088814855803239499701834435263031499935837738557970306169286247354971002974177717454238956028868426192960643080279892371937232201902610955850002560739024117874898049068750231230998584586870702212467064520496983021122328281347375990201161729580363679201910666689122227903018945801852686653580188088752590647858301766634716203489322016528009308955453070154018296741825511301429321536917577727013204786782005494730121366305304787845901186898038021847956011525641939482332600103016431140232299800916376315128601116008838549293865116680084036044922319194500718190971730587763006764523336587354330062981915567864657900510735897050784469004354631327597285020041067348233111959900329040299735653427003707887524845422860031530333375270491500229010404511884833002476397719028950200026694015921164202200279617554965781323002,
  413203916618904590557838794365573959205414622225650360665052268121868274629900514831437983207307805085528792160168284049148696789990027190472538053122289612104642516833171613120045698759645598625240441126266376567736204217796485071110880041275571266678277480404179842643169102403962076106372358183038902260236901450720371282855640593184203517834016283087122034242283075682311110333214892089674472003241642324294065798031526226596259976670306483525935107771302977833769542695988028909800724125379850271034744448701518502511441912816515038024122912035181055770231281598079234419602212959267995716583021126959713776962880201203837346348786001911036137574171363018977042453875928270188342992545125530401768622927954893746016542925420174663550154125458341024717301430057333265343530013209604843143850250121396321016714923601188672391280217546011535565511815487630103068766654164488900916635613140977361008850566851550067920084087888515344902900718397942036655385006772116644956921850063007299425773420800510812384998095535004356679218365548290041072121737455410600329134083219953038003709347439022789750031531853046706793800229011880463934010002476052018895700150026685385334912478900279490982501235263002,
  449522219517974370558514318042775958105415857257158535722052290309300571199410515222992330895925005092314459892546981049160240967936067690472730784393474849004645673314192516893045749453222779068150441206071704446012504219027500677858097041294169177379404070404454911921478395603966057154684917609038958613812925844330371360837927379604503518888385140344272034256204129503453070333394276123042979603243896897140056035031553847430736444120306813143272807707602981662695916542451028953063429289888010271082253626410416802511948560346471645024128154244612696130231334174893652066502213469903181133363021131757046964943440201247385104916317901911417622281922106018100925039947093380178604695456463589401770666308856557129016558231542118574590154235250829423702701430810023180859284013214525885238463350121426930863621652601190479074219439322011545654347702764980103121892117012577900916898422579673419008862728603661992130084140274623605905200718606762704830158006779766345634081330063032833650791771700510889211848273324004358733138281240160041076902174162270400329227859339056930003710804775206290780031533366296131711900229013280553944507002475706413545888000026676775781949116600279364811744822683002,
  488960407697476850559246712676734719805417194147755159006052314288695331585420515645502003930937805099625021252595301049172658485486175610472937768832873406404649057876782111786045803724030093968860441291373728082186604220341228041699808041313985370565622700404747537773799887203970285619754621021038101837533455201050361443405816731864203520002995386969006034270897384880498230333583312495399860203246269045107129089031582862958052166420307158859816900603502985672321954493526028998296657388696640271131848732585265902512476622462630047024133609456497436840231388802244068556502213999622352902988021136725880457552300201292419106821300701911811510205150755018104245360673111590178874064572217770001772766271860789172016573937031478504400154347733067342519401431579957321559828013219551879632647280121458145260798348701192318601476414581011555910811502966070103175817555930265800917164782340139866008875035913347473410084193207488548265400718817445135344805006787472690390426950063058518647705242700510966377857079826004360793077577712850041081689502631196900329321627351796067003712259529618664530031534873139731163800229014605213112908002475360905877697040026668187192291458200279239040788838436002,
  531780279082940060551004065293655601105318641095647798379052340201217112771590516101352730733746805010750003557018961048186013677633052200473160032203990023104652686548712277445045861817392546486350441382540120807858804221743060213934719041335097230113160300405058805854636438503974776385913845570038108174410936095680361530819817912985303521181168739801552034286404133565244160333782501277270695303248764664174534599031613340803458953430307521429516443427602989870811330873001028104558618064836350261183617125848811502513026960783186349024139285891251400300231445555905615626202214549099507356538021141871991024088580201338986990396790701912218178708210335018107668073849822130179151308233348838101774924263001281578016590051448591386150154462965099044818301432367492818372502013224684830793667970121489974781195017001194191494615856978011566337295404783500103230553098914500300917434731641002659008887490152620603850084246691371156469900719030000757244764006795235931007638660063084354819783790300511043883275225932004362859026408744160041086483682269450600329415386520482627003713711698553328150031536373593699543100229015854870495128002475015498758349710026659619496213671500279113667737608723002,
  578265078110995980551090118842821678105320206942559965326052368198869932239140516593109359991725505011598196489822314048200375490618563400473398672050547687904656576452158471213045923994970995655720441479962417262628504223238731141491383041357586900920369150405389866786028548203979545203188543595038114893070251390630361623354718166210603522426403414715898034302767792356531420333992367440633057603251389934094296099031645351734494249910307901640100927981002994266679944541390028109502132982470810261237649644575090002513600469822663540024145192069568502000231504514296355464102215119031038035209021147201337885636310201387137820177457701912638015832374592018111196122145707090179436639990428763001777141762092210134016606584561399322550154581008173745948601433172993379498458013229926776786452930121522430157399177301196098282204780658011576936219674605440103286108975508284700917708310025641975008900092702385258230084300730551942438200719244441028206075006803056319271639350063110342568773008500511121728348376415004364930974849107380041091284672494005200329509136110908263003715161278373898680031537867674239080800229017029953015014002474670195024390130026651072624246132100278988690707396975002,
  628721209855656260551183377301917343905321901222960785125052398445307978619220517123528951917250805012511638121693990048215817803252391130473654862576292966204660745876243435574045990535817319804850441584057514269458204224834336533258243041381541572297557810405741939915124426503984608735910873507038122015754999233090361721300336514075703523742383148804357034320034008167487470334213462048432946303254151331472373889031678969800584322230308300314524688905502998868810392329972028114669513449946770261294040738286270202514198078179341530024151336822759718910231565758563886238402215710136432354842021152720068086543270201436922126512174201913071420574584005018114832526480158890179730278722226002401779420283440436609016623546349476389150154701924766940482901433996829395583902013235279789752762000121555522283632688501198039499887551052011587710032905631090103342495517505386100917985557363769639008912844952457165230084355329330933879100719460777434352235006810934106966761380063136482294885399400511199913317155000004367008912895139680041096092432732649700329602875392342161003716608265513719430031539355397559212500229018130885473028002474324997481964040026642546507174779100278864107826310509002,
  683480087734277100551284429639795485405323734216962485521052431116705338351870517695574800148912005013495218801502788048232419769978251600473929859846781493004665214354244317908045106173749562075670431695269263104690504226536355961745432041407053777655121380406116317281510808803989984613963561440038129565960400341490361824962315826338603525132986665422614034338250768073452200334446363498491643303257055643425998332031714272478562093120308718312470084452002910368646700711856027120070446861491290261352888603734707702514820749763033910024157729303426297170231629372674599146102216323158988425703021158434522012231880201488391946188690801913518803172839844018118580387931415630171003244875671269701681761376571022439016640947008123657530154825778602053213901434839378046296017013240745976395868880121589262217767654201110001569046149960010598661212268304080103399723159656874700918266513853004828008925748301585780660084410492027661960500719679021490069706006818869545869914890063162774396791725400511278438417149650004369092830465308460041100906922425078200329696603637528940003718052656475383530031540836779875953900229019158090554758002473979908907096740026634041076040488000278739917234208021002,
  742900124935729280551393911803460885705325717007151632489052466402688916312650518312431448589266005014554185721618176048250266187115987830474225007333742170804670002745753614089045113791727346931620431814070158543929304228351676270719413041434221711394358860406514367805588975203995691486793119912038137568501217255620361934662955021411303526602297602925237034357468514566443500334691678824177582603260109981841356388031751340824337881170309156531911718223502910872931148139230027125715020143084490261414295325827226502515469485064495070024164378996476954580231695443505662300202216958866552565778021164351239057000800201541600864093925001913980585398389347018122442889686643310171034337999453750201684166626966270932016658796952533416990154952634672417624201435701023408318467013246327478470797360121623661183361571801110202740395310624010609792263762063810103457802440379555400918551220020448453008938804157475968250084466222981148364200719899184737822792006826862887744769370063189219271612457900511357303878917980004371182717400781260041105728101023972700329790320122686405003719494447830264050031542311837411283100229020111988839664002473634932045967210026625556262138425400278616117082608170002,
  807368880463118570551512510371984997205327861539638791154052504507339015781220518977520771786878805015694168248318268048269447883798793920474541741823895251604675133324101852405045121941338742684630431940963130371119704230287616363348775041463149563953735520406937541709864900403910174908033592161037146049583222302980362050742083353054503528154614928860566034377740266251822300334950045054316809403263321798256779517031790259630970421220309615910744053078602911400741909784333027131613735409453540261478367023553614902516145322467779838024171295730499416980231764060939808768902217618052278058676021170476963445551240201596604055933870701914457200854847529018126423299034994160171066330803500796001686637656818514139016677106822023578200155082559263585888501436582156564781022013252026473280161200121658730571711815001110407519769474945010621105722468409930103516744002466232800918839716724255810008952013936809481460084522526549891689800720121278747967356006834914384335939620063215817314909283500511436509927992919004373278563465993050041110555927996080400329884024127503264003720933636218042130031543780586392530300229020992998809572002473290069615182470026617091997017397800278492705534598611002,
  877305371487017000551640966487357214405330180689631317055052545650262349655210519694519192062523105016921204999886057048290062139221334700474881599715451741604680629869368442787045130658638732510730432076483443360604304232351953449500521041493947876014136250407387375185634919503910817825700830996037155036878392485200362173557978824840503529794463862367598034399121744232938520335222130634917835903266698899397578490031831117593394902560301009742847485329702811953129558931915027137777526202035580261545214001086286802516849339606915798024178489689496910490231835317963008041502218301535405720513021176818650212060120201653458332037624001914949095284403995018130524969404485840171099247430462735201689176125796865387016695887484343248780155215619975974403501437483175716137596013257845174175648080121694481943929549101110615963640202681010632604152805281250103576558593797769000919132045155207545008965379065266243950084579407111853185000720345315118563425006843024287363179870063242568920676721400511516056784888444004375380358349213070041115390362823276800329977714935136572003722370218346238880031545243043051777900229021801536857371002472945324302045530026608648212479197000278369680764746236002,
  953162564566676150551780080082710914605332688331855388901052590067742581885050511046737611147245904918241772789492027048312213127917036070475246223726955825404686517767326721701045139982056404813410432221200712082618204234552950835149591041526733912920143460407865495318192530103911500107891947802037164559604018086870362303488332869996703531526607328539151034421671504440198430335508636915393712103270249463389712595031874007480074594920301060210798698029302812531189465120466027144217774328243350261614950904223379802517582654768289611024185971425000530740231909310765102326702219010162066854454021183383471340708320201712222182270577701915456726881266043018134751342443558870171133112618823146901691783731828160933016715150040050498410155351885747849042901438404486292508503013263785831065199090121730927033033222001110828129225164677010644290148782746860103637257068056987800919428246838278937008978900977545431630084636869064441870900720571305475187134006851192848515589860063269474481333804200511595944665105565004377488091663112360041120231365003623600330071391832209140003723804190989750170031546699223625260500229022538017295537002472600698764824510026600224840577945100278247040959008016002,
  103543005921967570541930714429829840005335399416176248715052638013973846798880511130033364190879604919662817557570249048336012394891558940475637370044650822104692824114689944149045149952546583593920432375721037241336404236899387341410502041561632060430494010408373625284356562103912224087447373672037174648605920780060362440931263533222103533356057969575513034445451076171957880335810299702074653303273982056680554269031919026311852666770301113101737115794902813136063613010985027150946327323022440261687696882352791202518346428340189048024193751868568706850231986138843491118202219744806109184409021190178822071655050201772955822082254401915980566612491724018139105950148183010171167951716277132301694462211892315809016734905826963314250155491426878654153901439346501067500323013269850730925922070121768077746061688801111044074495989333010656166334260000220103698850385444268200919728363634207018008992581117386344550084694916824498945300720799261470741279006859420319445820180063296534387715828900511676173779138383004379601752945329000041125078894052414000330165054108806742003725235550990378350031548149144352780300229023202852364757002472256195633017560026591821813619425100278124784314642814002,
  112463697830978960542093801029410827305338330048790041086052689762383066029550511219794772218494204921191787426489573048361579362554958370476056915936159805304699577831046920008045160613750842176870432540689270633532604239400588445494239041598774242970000130408913589836830832103912992230853708347037185336445986406820362586306379494926403535288090738663238034470525107126199660336127890881920341403277905651696135190031966275548291387550301168527183241950202813768942491357412027157975516554395130261763575756120382502519141864310985960024201842344685302910232065905109949782502220506369946375828021197212327376552940201835721239714960001916521098546370734018143592417035407630171203790693378914601697213342832327009016755166424684806540155634315052689726101440309640273520599013276042198322796920121805946166207167201111263858186166713010668235363203675440103761349613394996700920032437741056245008100642093758908810074753554828281631800721029194785265228006867706951764298840063323749029066206700511756744332480424004381721331659036620041129932909503216200330258701058475299003726664295256372950031549592821477124700229023796452242547002471911817507615490026583439064160411000278002909040123844002,
  122135508078227220542270344869237676405341497579386708778052745607047279129790511316511071685426604922836668018915191048389041871517441570476506867859976278604610680977789916689044172012168462231090432716791416214423804242066459240927661041638300365617146230409487321090647299603913807145635162938037196657494227417950362740055897385973003537328256103663487034496961515213803060336462220119459685603282029645265406067031101586128179657490291226603567304363802814431067054632508027165318175995368770261842716190990953202519970211817486922024210254584068190880232148716000669886902221295785431763333021204491848607767140201900582244599716601917078820188511784018148214462364248980171240656157463464901610003894217915141015775943659203671770155780623363140612201441294331718600457013282362595933206170121844544554968048601111487539799010134010680499919947460620103824765927298686700920340511695781834008102042190003503830074812787531446309400721261117125743807006876052997033458930063351118793028395600511837656525631016004383846817193507220041134793370908899300330352331978217777003728090420761966320031551030271243490600229024319225051769002471567566961362190026575076525007998700277881413355052095002,
  132620211341133060542461430077217806705344920694711260786052805864212626983290511420707559779821104924606020190401133048418536757443717990476989370102068761604611455288523601598044184197337932596480432904757175178694504244907519319688552041680358781126934250401009686462772696103814671588139055268037208648025600257860362902645814954444203539482393888903003034524831647456751620336814136630111355503286363877843260767031106789443983658090291287452435489096502815123730759952898027172987661685343360261925251876896713702520832766745024873024219000737400484100232234681589611504502222114014756922227021212025490325576770201967604516966724601917654242825800424018152975902404839750171278575366847030301610294086899169777015797249607570988570155930426336462375901442301010904741557013288814325077347050121883885354321728901111715179615675701010692962719453016240103889110611219831300920652628375791200008103458547570710810074872619409031028000721495040225915156006884458706761972720063378644065637903900511918910554101945004385978198864679100041139660237842659700330445946168491107003729513924546916750031552461509898920900229024771576869304002471223446539013530026566734129218916600277760295490070491002,
  143984541944026360542668225998153746505348619518980451497052870873922077644700511532948181630559304926509020336461191048450210466298753030477506713972815741404612284228611003367044197222029616745340433105362643407786704247934939684488004041725106783356968850401074438593640996303815588471735573678037221346321813703910363074567142763468203541756647784612114034554210446287488660337184531033166840403290918653565311373031112249099557658350291351200664415488602815848281682036163027180997871904887790262011321714173810502521730873380909993024228093389496933040232323915705259892102222962051375735016021219821607307718950202036855658698004801918247891878392536018157880652756770850171317576245311444901610592102471216971015819096602654405930156083799957127865001443330121147802499013295399826254567100121923981188917560901111946838703239801010705626507572207360103954395058620479700920968831000503247008104891314470980810074933054955437397000721730975846077789006892924332399008040063406325231314375600512000506608424155004388115465915719600041144533469899029500330539542933202919003730934803716048500031553886553691739500229025153911734485002470879458757592280026558411810098854800277639553686778731002,
  156300582329705340542891993725175598905352615721643654525052941001759464751830511653838298048350704928555503444685526048484219710464051630478061347599514999904613171545970256873044211142450253975850433319433170102283704251160581805312279041772711128536814070401143217720366536003816560875453022344037234792778375410380363256337197222252503544157480554861584034585176623579119290337574337287852054403295704761168697867031117977218726105140291417980684164946802816606124709016175027189363268088534320262101070005993656302522665926122904373024237545573918333740232416536050881305902223840920954619465021227888811745732130202108405245450463701918860307259912616018162932730717573570171357687396877183601610898135403699953015841497237970783740156240821692738837801444382113698939386013302121579685668250121964844868290008401112182578922834556010718494061310618940104020630773084414600921289163132905315008106340639628908400074994098684411757800721968935772896446006901450125328475130063434162672853757900512082444874154678004390258607517590210041149413026694885000330633121579708112003732353055438799120031555305418871002300229025466631657788002470535606106642080026550109501201764600277519186197649165002,
  169646181196295570543134093118956963305356932633010602575052101664071792070540501784027646041614004930756009073435890048520732168358814460478655886351858754104614121238339826123044226018459997738430433547846386911279204254597038940526624041823348585896366380401216266447859298103817592053070805543037249030017135677150363448500957881218703546691689976217101034617812842750211660337984534716023826003210073349581456599030123986474668981860291487930710186967702817398723822040881027198098896501051760262194646657502330102523639371244436158024247370788047165210232512664328375354602224751682349602486021236235980632671390202182324880078334901919492043746029741018168136257702312950171398938120870269501611212384580362333015864464372598415690156401570519507267801445457447867618053013308982105861237480122006489389092190401112422462937841951010731568189092395910104087829369043099900921613668681108246008107806672885197200075055755129025817700722208931819207565006910036336863306250063462156771420563500512164725531883718004392407612769609200041154298867870440000330726681418805383003733768676948762500031556718121685946700229025710136629291002470191891048478690026541827136329173000277399191285943095002,
  184105403506430910543395990350183615105361595368304817533052109821320133225710501924213505154208404933121830450290426048559927230364760920479293123940037534404615137569441799087044241913802734854720433791535417389297804258257679849340854041877206519248310440401293841522677198403818685442693498166037264103004599699310363651632492055668203549366425540742351034652205909302427120338416150115200933803210601668184922134030130290113714587870291561194984417266402818227604461673624027207220410703455330262292207381887534302524652708718313939024257583008637998040232612426365823393802225695428610936896021244872263346835960202258688247384247701920143671351585181018173495461715264370171441358427288063201611535053389333699015888011136169868530156566126948110314301446556591146210671013315983966096032910122048927937349819901112666554222145947010744851731026357350104156002572503144300921942391899898670008109289564998601860075118028841656564500722450975823823318006918683218239722960063490307906540185000512247348757241872004394562470700016230041159190953090236100330820221764733618003735181665543238260031558124678385454000229025884824627261002469848316018438430026533564649529484400277279567225628162002,
  199769014735682210543679266003254456405366630960740163341052118617316802775810502075144083529829504935665066895785968048601996794028077620479976044227544596004616225086159220441044258896350472091640434051492277159415204262156695029296509041934483501203356620401376214629600443403819844676830497071037280059176292445120363866336449982905603552189205958470363034688446970164486030338870259965781359603211156669654243145030136901980114665850291637924025955056802819094355984224104027216744094835887340262393913913599654802525707494100758133024268196707856623510232715952248835407402226673288015978638021253807089436288700202337571170229101101920815775716451524018179014679874678690171484979052469225401611866349815049139015912150933946617420156734573049923797901447680019336195188013323129763089490790122092173890735751601112914917068443541010758347559173423910104225162221775458700922275377392289192008110789467647850240075180924393965571700722695079651335055006927391020611532040063518616456091322100512330314720907480004396723170266533650041164089242044116800330913741935168037003736592018582782940031559525105217515600229025991091626655002469504883425125860026525321975097277100277160312301296288002,
  216735001898234320543985623781875350605372068504259127198052128100842652449880502237622138519417104938398679791135542048647146111696881720471070783380329905104517388636789080331044277038362621512190434328771475737113104266309145619628347041995389961784511730401463673231503852403821073593006942428037296948567473685770364093249633863341803555167937495996151034726631722231656070339347992736452454303211739649484282470030143836541840411850291718274891658660102820000634211239402027226686887745353330262499934228960095702526805340477613843024279226869822200180232823376455800110502227686425131055956021263050176609022520202419051667031259701921508958500304213018184698360991643220171529831475073045501612206486531827596015936897451976542790156906992483638385901448828216675971475013330422141492386400122136240820865161601113167616596614311010772058577815322640104295320268205939300922612670111065878008112306533433543690075244446376877632700722941255191915723006936159995044420390063547082796298458800512413623588614168004398889700356927920041168993694448202600331007241251216483003737999733490759140031560919418428705800229026029331607670002469161595650657570026517099047572612300277041424808082445002,
  235109134071000650544316899860073260005377939306615389679052138324309382466020502412508847618256804941336552322555756048695594693948937820471149189536040507204518633390436203083044296416761063566240434624493831577771804270731015118940415041106014887329884180391556521454794818003822376244932855729037314823950514775020364333042644289008403558310933189459937034766860630506457910339850531291964224103212351963519190672030151108917439360010291802411447031609102820948164075496391027237066407987222070262610442774397459102527947920474667930024290689007667128580232934837997145952602228736041903081762021272611538933759510202503210010686436701922223837786491736018190551068204078010171575947932373590501612555680999135325015962264662335475650157083470522263256901450001675970311845013337863788479710880122181142495611566001113424718762149102010785987723724602770104366488776907812600922954315360333510008113840915880036820075308599400558824900723189514361121643006944990392510266510063575707301724467200512497275521158548004401062049789571490041173904270045850000331100719037415320003739404807752891330031562307634263661500229025999936564226002468818455050903920026508895801740298400276922903051584085002,
  255005565333322210544675072925219436905384277053530106589052149344022745091100502600727946550446604944493553249642105048747577272372201190471233186193171747304519964857617104118044317113421916938680434939850512549641004275439264073593515041112899647342170050391655081022798474603823756914258748944037333740979263375080364586421607721173103561626932971850466034809239156263219430331037911540760275603112995030643979976030158734903994587990291890504647784267702821938742366946972027247900979730292830262725620702559079702529136968334043095024302599181129730930233050480558723060702229823378781675492021282501495256450430202590128788939982301922961048495191770018196577481666904270171623361436873982601612914155558559863015988266828453890410157264094080521524301451200898721459783013345457434329795200122226892881443672501113686290364637507010800137966435923220104438679927495423800923300358797057903008115392769437294900075373388094393855200723439869099693095006953882463881460670063604490345263230200512581270674408011004403240207314002850041178820928608603800331194174621725365003740807238916820190031563689768964569200229025903296512473002468475463955730780026500712172629209700276804745347781422002,
  276547483249180480545062274962923148805391117984701348623052161220464316155580502803270152415779004947885604960965127048803344825481433550471323161203540780804521388912146931887044339215484997096540435276107314709317304280451887901595682041120218302855010420391759692239591692203825220122947337726037353758340737710230364854129988845531103565125124756314569034853877995676995660331093504439487756703113670335590749954030166731006229249570291982732832469924402822974240582186958027259209659596219790262845656116553291602530374282058703125024314974014695251100233170452649419333702230949715872581465021292730677837681570202679892966244239401923721242806046515018202782401299458670171672105793246432201613282137532521543015101491851052994220147448951742642285001452426395261895367013353205853009743930122273506145783291001113952399056314703010814512308518636530104511906014819629700923650846432605721008116962249482730250075438817106962831400723692331373354377006962836459925240400063633432298132400600512665609199308736004405424161611486600041183743629937147300331287607335527762003742207024591660680031565065838770656300229025739799499281002468132624669235840026492548095511553600276686950022958333002,
  299867806243224430545480802837151822605398501082499468797052174018593108200750503021197890979915704951529756096748422048863165671787698980471419528578692122204522911814386883639044362815682001205870435634609192966024304285787978025590262041127997363958841000391870715026912804403826770646292426035037374937914507888060365136950491805755303568815166518964373034900893329375721780331151967984311695503114379431864215875030175114466801012290292079282026608157902824056607881136660027271012264465042740262970744322585275102531661725627157826024327830716301080740233294907753126428202232116374123186996021303310041216282340202772589947134005901924505090590471775018209170749591229990171722215615603518401613659859324748873015104223457102999380147638133790553724901453678684888781505013361111862767216100122320996659384319401114223113350667432010829113785850650160104586179449704645900924005824634281485008118549512323016400075504891106017354400723946913172612803006971852631298028980063662533529866200000512750291241893778004407613901295571140041188672333862231500331381016513619534003743604162447561360031566435859917692300229025509831610726002467789939469985400026484403505902156000276569515413624056002,
  325109933462021190545933130722667326305310646827423806101051187808168383841890503255650348429025804955444259036215911048927326634285360660471522730203709945404524540235934001053044388012684515959010436016785057969454304291467786497815038041136264909244146480391988530016905732003828413526617536663037397344940138593160365435707054497473403572707209426572907034950407083393748350331213444848185486903115123944791370625030183903297832631990292180346258722969502825187874154747417027283329400279604230263101088091257484002533001231280519090024341187096622569330233424004485174555302233324716540964630021314250871304569460202868309641154054301925313279853839882018215747574467024630171773726345106487301614047558522545137015107023018027784090147831732232482108001454958296000108794013369178326728610550122369378998732989201114498502631099641010843945467893578620104661512759686414000924365340126861738008120154715195881160075571614778456011000724203626512557013006980931228539796720063691794408308343000512835316943291360004409809414912648910041193607000245609500331474401494209271003744998650215265320031567799848637492800229025213776980530002467447410611247370026476278339557743600276452439866435490002,
  352428550968686200546421923450854568105311506464897081360051202664095118269630503507848869227535404959648652565997125048996134280883530150471633237659982367304526281285840019437044414911473006852850436424152854342638104297512794309636034041145050675560773070392113539703594848903830154087688434196037421048193084894260365751266940292343003576811922056509890034100254720202477210321278084516908796803115905574700295993030193116313726585780292286127888738021802826370153207673387027296182491882655340263236897927813554502534394801884117047024355061588956186480233557906753357722002234576149445679318021325564794720753190202967144529373074601926146517187738336018222518052212672000171826674267916230901614445478000873401015109892082213381330148029840831961290801456265766232554881013377408153503695710122418667948469429101114778637159657552010859010457969166230104737918589752425500924729439994126436008121778016271877540075638992830299200200724462483432654420006990072502068427520063721215299604992700512920686439733291004412010690942511900041198547588980951400331567761618912552003746390485685672480031569157821157430400229024852017798516002467105040321223390026468172532476212900276335721738120269002,
  381990498393761710546950050834277040605312433868982924945051218666793656044800503779102723119065704964163850065945082048106991624558714510461751554163631968604528142538450985041044443623728012939600436858324936211182404210394578358851709040154386152738836810392246169656131642303831997949875336809037446120169451200130366084542931758998403581140515758328084034105744793309302270321346043601068528703116726100233332298030202773165313454340292396837949186989002827605646059981765027309593813921545240263378392351613288902535844513365951555024369473269717277190233696783923674336902235872123756223883021337263788364170810203069189732519344901927005528232510915018229487490462412650171881096533492856601614853866028287981015112832229976497540148232555137257554801457601642601074378013385804297796739060122468878503830693501115063588085814582010874311893536994520104815409703082965300925098171680387277008123419574656132570075707029986663395000724723495996547845006999276702174097420063750796568197831600513006399862563504004414217717798908940041203494059994758600331661096232747299003747779666709406840031570509793699953800229024424934319042002466762830803277850026460086020895911000276219359395400546002,
  413975700458879050547520603039839541805313434252298527259051235902595209712180504070815265798908104969012233569894425048114902263552736510461878216626727279204530132062964673648044474268244840028010437321013756852472104211079091389604165040164304683535746670392386869797005424503833951046102333992037472637280042423190366436495631151899603585704771208537905034111525012618301220321417486161644292903117587381800013690030212894375385553240292512696499712889802828896644372108024027323586522856469000263525798185134557502537352517234315266024384441879570085060233840810990910955102237214136312962814021349360189239119810203174543080773855301927891058150290823018236661331249114080171937031173249689301615272976374739854015115845074150761500148439972511214358701458966481640236064013394369761024175060122520025873115301301115353427455315913010889852946473449140104893998981793755900925471582992012871008125079550390073620075775730991734640000724986676291851314006100854407901366710053780538576817198600513092457338246717004416430483830101440041208446373247265700331754404684128999003749166191196381100031571855782482110500229023932904869432002466420784236165410026452018741294898700276103351214917445002,
  448578168103914890548136907085293463005314513218439596637051254464164956798760504384490519369427004974217754081371121048123382752925332820462013797848814005304532258454808467982044506971373118145410437814037890208574404211807380285194021040174841569087473650392536115748569388703836019638623335669037500680054156402920366808135872653707103590517066212343756034117610154439077240321492584049849715903118491365175385421030223501375669218820292633932995347094502830245533997406605027338184690109432950263679350852807395702538921043176995496024399987845208232650233990168754200568502238603731236490282021361866704533213900203283305185257709001928803872108741324018244045154118505790171994517119567831101615703068421285584015118932260682332850148652192161522346401460360849547325645013403107591938878670122572125480169518401115648228219083429010905636823351979640104973699427680085200925849722098951200008126758104453134050075845100608741618700725252036429945279006101787488260509390053810441686475313200513178858988377367004418648977319418730041213404488733335900331847686324865975003750550057115366690031573195803715078300229023376305858384002466078902774256440026443970630390219400275987695583156142002,
  486007074284013510548802544538999270605315676790556638021051274450954607674210504721740200369568004979806038548085977048132473057202758740462158908846752409804534530868946277588044541867482665658400438339328402972304204212582161132094451040186034180156406770392694410251398959503838210336665756287037530333353587335690367200527251578184603595590404808413058034124015719018255110321571517261803325603119440085249529540030234616545291064900292760786669075326102831654798666785651027353413336392194600263839294689993917102540552401744522741024416132301804261570234145043997689436902240042501323721500021374796421956264820203395579511250827101929744755775719113018251644679308603070172053594225177230701616144407271727240015122095469234985200148869315171418798101461785322327227777013412020887261069250122625192966895336801115948064242180361010921666765724602720105054524162962180900926232637536248447008128455398764434330075915143619927880200725519588545770716006102726936282183960053840506256459575900513265604929688470004420873186485811050041218368366483347200331940940510154343003751931262493564510031574529873603699700229022755511784352002465737188547760620026435941625137164800275872390896371655002,
  526487909861991460549521370508393988405316931441964957356051295969686440247880505084291224957081604985804503924354756048142215867421808800462314201331321759604536959055229358901044579099457183437680438898935596975908604213406313341182202040197922074483133030392862284658174157203840530114985118974037561686597331784060367614788775974332303510093844773517525033130757964597141320321654474308646657903120435669934351568030246263250795582200292893506929216143502833127023810069934027369298467252717330264005883262437783402542248987120011341024432897116147401460234305629676450480102241532089482265617021388162820345875220203511472453180239601930714515825084304018259465770995549500172114303282910557901616597263866213493015125336413804798550149091444530822034001463240485939107286013421112792315915000122679244195780397501116253010312836436010937946050404695260105136486431032049600926620378205564951008130171596184443140075985864826523604900725789344797622812006103672776938731210053870732644325953000513352695274060795004423103099484403710041223337966564072200332034166598572935003753309805416176990031575858008346024700229022070895243928002465395643662947080026427931662728536600275757435560515327002,
  570263725405236470541029753400851213105218284128929211013051319134870928728050505473993722718364204992242478777394391048152656781925009870462480370339553392104539553395912500825044618819217387599420439495036142682173704214282889155105406040210547120565134100393040300506959606103842986333375821308037594833997511458490368052097646313763503510657554431964419033137853943004718540321741652602751424703121480344233907203030258465887773503140293032353772155200502834664900518883911027385867109880858330264179379696515998702544013279978202177024450304910489185520234472125107784109302243074190204044239021401979780546014100203631093411416574001931713980453881065018267514440607098520172176686045836064501617061915096830897015128656843344582430149318685167905338301464726936444904206013430386501677872280122734295252449860601116563142151533328010954477989751023740105219599597201537500927012993376687608008131906860516613880076057269048716653600726061317366943691006104625035186930340053901121205892427700513440130128532086004425338704407047710041228313249079543400332127363952078264003754685684025983680031577180224132858400229021322826940206002465054270202365020026419940680593909400275642827991161968002,
  617596465106463450541113549980820917205219742325772801774051344069360233419680505892829592597040604999151332921905796048163844498797442820462658157032284092304542324945464028523044661188275279253250431012994062570641004115215123690744467040223953628201877670393229051177947298003845586757185467549037629874807050688480368513692169196232003511251676585237886033145321536852149280321833258860683180803122576434484788344030271249924162538170293177598210997694802836271229656009520027403147351215332710264360057020636160702545847850436395846024468379087117089940234644736168051323702244670551079146340021416261596565018830203754554870918440201932743999911119559018275796850204993250172240785247775869301617538643925215462015132058542398162240149551143981115641301466245280159661930013439845259821820210122790362448240422701116878536420150588010971265931953056110105303877149451803000927410532689039101008133661356509000400076129361125623038900726335518458114480006105583735967445010053931672295232559000513527909595306440004427579989282872940041233294174171922600332220531935999181003756058896522916230031578496537147314500229020511675691148002464713070225060840026411968616398879000275528566613437556002,
  668768399485851970541204007185845628005221314062472518489051370904939967086340506342921636572183204910656461559751036047175831020672384610462848351666981344804545285472805444807044706378321344329000431080610152948375904116206445545843216040238188486163022470393429163637927011903848339578882424265037666913579671201260369000874811271094203511877794051490281033153179498397669180321929509523615070203123726372773332915030284641945284293910293329522720720637302837948926116332220027421168377395268750264548198518132029602547755361100036282024487143853676869900234823675495186995202246322974350928880021431022987019570450203881972481764904601933805447038392047018284319315937505870172306644624216040601618027739502214739015135543331744656870149788929871641866001467796133803703523013449492361781031580122847462322796507901117199270731172258010988313261317517680105389332699183985200927813046153183520008135435249855849000076202145915256753100726611960298246632006106548904204271190053962386264669098100513616033771763841004429826942078837210041238280702022349600332313669919031567003757429441163638350031579806963564376500229019637808437870002464372045766792210026404015408044330700275414649861947694002,
  724083664000522580541301641841424702705223007964909576272051399782961811495850506826543308990756704911451820273560270047188671872676993750463051796756484151904548447506124308941044754571846576336330431152612167844508704117260488000411606040253301307354580310393641300276959016203851253440728617873037706060442792655710369515015399847045203512537568992874041033161447490153583150322030631195912661903124932701536678525030298669700683503540293488421700426703502839701023244659828027439960514601054630264744098092020993702549738570205783041024506624249264831790235009162697045250802248033318513398987021446279106871343470204013465141617202001934899217822561164018293088311563434100172374308933615032901618529497289630707015139113069052877700141003215377633795501369380124656674531013459331153812031560122905611646688796201117525423656954058010100562339855619550095475979981971169200928220584152328587008137228707199167900076275628294498988800726890655136972512006107520564804184640053993263464767688300513704502750469774004432079550700275780041243272792851789300332406777273232931003758797316261124870031581111519550457800229018701590252997002464031198840242910026396080993665684300275301076180706611002,
  783869911187616170541407009896930564405224833297959671552051430855019725836850507346129121872393204912305045389609204047202426334335856780463269390424928959904551824380412161537044805962801320062350431229276316737852304118381100845101532040269344581876865380393866160841943179303854337458612059661037747431383954338150361005755447694832003413232746739816543033170146127310011590322136861102639207703126198078354945480030313362152838081770293654601953322207302841530677415870464027459555271330547430264948060641997652102551800334864990401024526846171311825830235201424565732457802249803499951935132021462045559463182740204149155080151600301936026231960762590018302110472048864680172443823979117128701619044219184074961015142769649545985250141028092870110587701370997890713469465013469365034066397680122964827424055168401117857074739051596010102319980107500090095563832858311570200928633197443824164008139041896130273770076349813159066724800727171615246235299006108498742656191910054024304244330641800513793316619184999004434337802991449180041248270406921870700332499853374016829003760162520184245500031582410221262980600229017703384348954002463690531435234430026388165311632146300275187844023066955002,
  848480084501852420541520709313094700005226800011616870588051464283672667466740507904285749067883404913220237949046550047217157686299542410463502089972791546404555430287887968081044860757293044970010431310895680403541304119572362870438225040286373838387987210394104484472008395303857601247096162874037791148551401560940361063000681387378403413965159792182481033179297022053085810322248447566760066803127525280942107949030328749527810983620293828383185063087402843441172783025920027479985382158170650265160402454048807202553943614410591719024547836403281323090235400695298087166002251635494628430182021478338408861787320204289167945506123801937187433437968267018311392597238036650172515236630677601301619572213642967404015146515006676533930141053536975474362801372650080842060114013479597453269546160123025126895264191401118194304497609405010104104596326427540095652905314382946000929050937160657252008140874985191316120076424705423480697300727454852920078158006109483462630981220054055508950390823200513882475460875475004436601686736091500041253273504535714500332592897600147290003761525051357347240031583703084849943900229016643552086233002463350045518933840026380268300545964600275074951851649974002,
  918294322579327800541643383157113906705228918790359143554051500243216935450890508503803874872784304914201781894570290047232933472817496350463750915663674498404559280331476688949044919174325273713440431397781209349244404120838595052553635040304447814207505580394357051840886591903861054945745609749037837340569509625370361123396509362517303414736732005157701033188922829858448670322365650506855418103128917212343395002030344863367917381150294010098521134750502845435926199267634027501284853025863540265381451603086269302556171473850469985024569622643204509280235607216722470123802253531339811962809021495174192514034310204433632892784679201938383791117360603018320941655599656200172588594847606384201620113795812709934015150351112812042260141079559418326351101374337354943241508013490031915406559980123086527539601256201118537194440811201010105916541679033700095743211462798184000929473854812943289008142728143876777510076500310021032803500727740380474432791006110474749580376100054086877928205573000513971979353722360004438871189657955000041258282046038758000332685909333733027003762884908259842120031584990126449513700229015522452981665002463009743036063150026372389899241667800274962398138276501002,
  993722003269245530541775722919910086905231201105977195216051538920511449468410509147670835586470704915254363050397908047249825780929871710464016954746208523904563390581522231537044981446580014149710431490262779431102004122184374472923444040323628634616792410394624687411687785203864709246791347958037886142869748913140361187110376889513403415549482968020939033199047297844221920322488741956182155203130376906347358355030361736586483324720294200095043954542902847518492319505880027523489008116399570265611548369005788702558487087430481540024592233533075931650235821238532031609802255493135856128584021512569934224223890204582682674662895701939616299343772880018330764788050038310172663947701537191201620669287659067523015154279979931224090141106172140468578501376060384112315247013500671978415098580123149047077977440601118885827074391176010107756173088826750095834765543362076900929902002289413522008144601542634951640076576631903752819200728028210246907335006111472628336789120054118411521250737200514061828371132187004441146299421357070041263295991819565900332778887960221784003764242089425793550031586271362189602500229014340444716655002462669625909104890026364530046785325800274850181363898483002,
  107520393742647310531918472071066330405233659274102974425051580515859491404100509839084105572134704916382989339589008047267911537411334550464301365725215943104567778135924208658044104782124617267300421588690307814244904123614549011554513040343982001835585190394908261809756039903868575424200237889037937698037926594240361254318310364223103416405532584313945033209695315271004660322618006603958512403131907533121046709030379403524774764160294398734350409065202849692568888105052027546634538361122520265851045666592092802560893742310387157024615698689133847730236043018524627290402257523048024189053021530543157459684720204736453734140990801940885978560454659018340869311854470810172741345399829056801621239018099788989015158303660331018950141133387304431312301377819850802725763013511521254885450410123212703475661239001119240285911206584010109623851265593020095927581923829185100930335431858898564008146495352869398000076653676042374550200728318354596573333006112477123712678430054150110071214768200514152022581747132004443427003631722400041268315302310637600332871832868394289003765596593443508820031587546808187470200229013097883145454002462329696038505170026356688682473775300274738300018531115002,
  116321472315325840532072429868017108705236306514689927515051625243950665280310501058146568262675104817593012317030243047287272824561739610464605382897108992504572461183898657924044111856089656304350421693434932611767704125134252855113757040365577394178288450395208694319562191803872665364217951965037992156178473835170361325205340663158703417307105862279440033220892966280029230322753742359779058303133512405077041762030397900011178629810294606393130562788002851962002218970997027570759551635769850266100309489702501102563394842356034632024640048733050048980236272822849557998902259623308363222299021549111898992328460204895086299489696401942193875939427058018351262724608219220172820839309407430301621823323139500593015162424247344561040141161217297049108101379616448991669245013522583412767771460123277514945033255801119600655480871786010111519940734922230096021675100662865200930774196171808118008148409746940372030076731447426301348600728610825903752447006113488260500004460054181973917992903100514242562049455415004445713289836127080041273339937989205300332964743450358404003766948418955128340031588816480549317200229011795122303299002461989955302876540026348865745833887100274626752601185661002,
  125826527192096660532238455437195220405239157016713755550051673334867073839900501137847743092298604818890150101199955047307997216004015420464930321165366425104577459073574196958044119394441626853820421804890259713938704126748922863635785040388488275918830360395526955511878371403876991597456945435037104967529658222570351399965946568618403418256537924810192033232667584964283570322896260942102980603135194982981438413030417263422720588100294823463768299660502854330792874654191027595903624699709480266359719370174110202565993912051229296024665315324054580040236510926261313181002261796217628485381021568294722883907580205058724481436316301943541066025696121018361952708298617680172902481981052036501622422546006905744015166643876070229550141189674733086010401381450884347692535013533862176086565100123343499948363962301119967021339453856010113444809867856140096117059699795379000931218348261606662008150344898166234470076809951063571058700728905636569802227006114506063469689680054214003399681422700514333446833401798004448005145523839850041278369859378023500333057619101542956003768297564656220300031590080395369888900229010432514414659002461650405559198560026341061176621783100274515537619802633002,
  136090551879520270532417472146036785105242226007380198533051725035157967886620501223403744344734804820280511792919633047330178133718785120465277581152850956304582792383647015027044127426798526632420421923473680506053104128464315841696167040412792318419274830395864070007780851803881567332604672141037111042169902938320351478804519177358303419256279248538386033245047812871225460323045888491794922703136958882312185012030437532749007065600295050354964684808602856803101551292880027622107856935575040266629668851912278002568694600532820558024691531192021403090236757612380501748702264044147259225331021588110734822874800205227516372638629801944928651395596949018372947133449697220172986327174138745701623037037294324095015170964724111918620141218772458910421901383323874400299183013545361325662447640123410677200614637501120339470079229541010115398830910658250096213750477389076800931667941546285099008152300980824835190076889191980820323400729202799016901447006115530557371078660054246198852572008000514424676987998312004450302558126862950041283405027046153600333150459220691714003769644029295377730031591338568732088600229009010409901392002461311048643015110026333274914822098500274404653591185879002,
  147172732983397190532610472286023700605245529826145282499051780608987398577450501315233748974695804821770623474696940047353915227618508860465648654628702106604588482999330697474044135984611838231820422049627764370130204130286526762305232040438571633105173480396221119386344991003886406491830740270037117457041457168850351561935848245187603420308901142100760033258063659039710910323202966211735859903138807879877554501030458748658682286750295287492384860626902859383255176445568027649414925948089740266910565980631767602571500685752633383024718730171541766170237013173962158991502266369541407205453021608579596820930730205401614149495602201946357763329547408018384254063350848900173072429881842918601623667155099604760015175389012330674080141248523556220211201385236148711582314013557084699841257270123479065672261588501120718089338504259010117382380014706960096311762320598629500932123029829828314008154278170154874610076969175223248303400729502325687834654006116561766931400840054278560611146131200514516252562934927004452605515020471010041288445401609737000333243263209857088003770987811673814850031592591016706589400229007529157390907002460971886368632540026325506900647207000274294099040936992002,
  159136762063137610532818522088304367005249086003873578097051840339359693865100501413786161891909804823367455889975612047379314779041319120466045130268563740604594554192850138120044145101276581221750422183821730071868204132222007994254059040465913016899603580396599245243226055603891523747975360023037124230563482152850351649585631460979403421417101474031872033271746562677857190323367851033560401303140745920704872567030480953568494233190295535319329318514902862075753227083014027677869145082592180267202833809735097102574416078769967089024746947237012672700237277913171622147402268774919019237489021629721542277480880205581174176344366801947829562499492426018395881758371015570173160846356811632501624313265170447167015179919005607837010141278941345818569101387188449049899691013569036195230543140123548684592143708701121102967811492356010119395837266508250096411110248334192100932583667303678198008156276642357239790077049905854579741600729804229045776116006117599716855232930054311089008069569700514608173603190453004454914003523749980041293490943732757700333336030474393824003772328910644966720031593837755351450500229005989103724230002460632920529313590026317757074536470300274183872503390424002,
  172051170094336450533042767094885056005252913347481435293051904529427889708240501519540599215359904825078453907663762047406490129626674410466468699767989766804510103070874280081043154812247762109800422326553000351775004134277589586254814040494908210758383800396999652407667214303896934563605284423037131382117656779710351741991007686958303422583710661177576033286129458592886000323540916312618144803142777125210010622030504191715066816590295794297430416656502864885274275251858027707516522925734180267506910922827413702577444828178494824024776218538768627970237552141868172689002271262875975047093021651557391420450440205766357112094536901949345239671329856018407838680359967500173251634137312556501624975741051165949015184557013619850540141310039391441237301389181529565614244013581219767443510840123619553450333605101121494195258259899010121439586717832300096511809412025751400933049908548193131008158296574596320110077131388957027533300730108521574073346006118644431823965790054343784374186977200514700440149043590004457228010900133670041298541614127809600333428760422952665003773667325114091570031595078800711749800229004390593964240002460294152897470780026310025377155467600274073972521549153002,
  185989686136006800533284437909929688505257032030434919058051973503890574973040501633010002377397404826911567883715931047435562137121465470466921164330013423804510793885424531816043165155163581932780422478348844267019104136460500663942150040525654171980714940397423612325836712103810265523202742660036138932096654119440351839401115246622803423811697928970127033301246845488391760323722552552298275403144905796658529856030528509229478904780296064907375042504602867816682769151629027738404824852568360267823251973380443502580591124671487233024806581440285458250237836181896647046002273836087281818589021674108567131992770205957328019350986701950906016422606278018420133497138189000173344852073866987801625654964231933514015189305391624864350141341831503635576301391216156968912699013593639431850445800123691692001032268401121891862514728921010123514016415968660096613875096388267600933521808534102427008160338145001295840077213629631254602900730415215776029869006119695936495270350054376647038516542400514793052236083978004459547524357939860041303597373556842200333521452467473833003775003054037873200031596314168819206900229002733971403679002459955585224858100026302311749395235500273964397647020882002,
  201031621908683830533544856357353484105261463689496407593051104761048295807260491754742891464593204828875287038335651047466659659756839270467404441549074049804511530659505898510043176169975780837370422639768112070829204138778391998677740040558253361003022190397872466618776684503810870292035453796036146901954967091110351942077676388645803425104177855382474033317134857249137620323913168158900939603147136428929771443030553954214754461550296347649654349791402870875036057625083027770583636686349240268152328242073985202583859305749404922024838074556485815860238130365387223258802276497309326805675021697397111167895090206154256476078029301952513145875783506018432775087076977930173440560356375020501626351324300537252015194166541261297500141374331743692115601393293110709725486013606299264337688610123765120265487457101122296061502744006010125619518434103130096717322720187866600933999422623956935008162401532667405740077296632996335238300730724324174687541006120754255502566940054409677328244718900514886009895223468004461872531050904910041308658182831907300333614106023180557003776336096424028350031597543875691822400229001019577573225002459617219242760620026294616132371506900273855146439954819002,
  217262284106634920533825442072649882705266231528139569159051112722156833377840491885325766703588904830978674974546997047499920070932724270467920572714768280604512316365680406986043187899087519547530422811403067667766404141239359810101974040592814043418684220398347630823641222703811509571472168333036155314262192587970352050295609103485103426464417210865626033333831337338244960324113190228283773603149473714595595718030580576826371655780296643045341530329502874065591666308874027804104430539252160268494628212357585202587253860574001368024870737793176677730238435035063595247502279249382189415731021721445700779577500206357316689858306701954167913447375936018445772543770341670173538820541740607801627065219096686422015199142911358500850141407554427629067201395413183159761977013619203402074191710123839858534935846001122706885240200730010127756488901812970096822167837008869900934482806573574590008164486917657187740077380404189715748900731035859312608033006121819413454494650054442875568721029200514979313152707426004464203018078716310041313724002815891200333706720508572367003777666451330911830031598767937333515600228999247752249588002459279056662182110026286938467423942900273746217468979011002,
  234773416392324290534127719558759689505271360427079850856051121273583652236030492025385667553740404833231407471496877047535489806049462090468471730560239163904513154163249016031043200387499219300870422993881323948484704143851970867540342040629450608003096130398850598327317342203812185266775682677036164192758888272700352164343667520348003427895842107087126033351375916436652400324323065365559536203151922553325909761030608429355902654190296951636898613740202877393814833963071027839020632904403190268850658164791632802590779434973202289024904612387649998820238750544559752272702282095232014217493021746277665747862870206566687614801240201955871637613269327018459135180800340700173639695582004736301627797054868906609015204236998759681340141441514130230470501397577179796685389013632356044285732610123915927373569150701123124427851236660010129925328035683510096928426136021821700934972016533482058008166594481001698420077464948367174662100731349833751654086006122891434934384050054476242083452967500515072962030126210004466538972487545960041318794794423247300333799295345418481003778994117867126340031599986369733770800228997418833463514002458941099174031910026279278696115363200273637609311138219002,
  253663673154405310534453325737780605505276877062396732447051130458011627075540492175592899454313004835643812693895999047573524943433963600469060227481434210904514047409634793278043213682962804570910423187867886585039104146625288958674992040668283901561801620399382944501954435003812899384841358570036173562415121317460352284525112164484103429402045467813976033369810093459839400324543260539168792103154488060633558674030637566317899630220297273989013320548202880865386317758557027875387695071611950269220942790741940402594440836601129504024939740950478341900239077258745585273402285037873446341945021771917005837770920206782553071156411001957625670690531223018472872536597511830173743249852994668601628547246434057523015209451349157232700141476225689138460301399785919390440963013645761453036820320123993347621524211601123548784576484505010132126440170042790097036113442752341000935467109050351510008168724404701707700077550270702782228100731666260072770034006123970344499730870054509777194100952600515166956544426715004468880381270579640041323870518620716200333891829958751004003780319095191134990031601199188867287500228995533157507802002458603348449309060026271636760230994700273529320551832353002,
  274039127252603670534804018032435546305282810031754999798051140321130904931960492336663938896103804838226913967537438047614191821422241100469688524254963104504514999672438693271043227836144816892240423394067312160590204149568902797371731040709441581459745870399946331052382669603813654039427919665036183449491833680160352411158411409935803430986794835837258033389177320092198030324774263970702567403157175576971620520030668044540146623850297610689467028887902884486210476588106027913263165941469190269606025826019065502598243040257764549024976167508538240370239415554061547866502288080412130787259021798388408683871290207005101867688555401959431399636033015018486994379398057970173849549183497571001629316217339512025015214788557940632460141511704209000265001310204023419175856012659423954020343480124072140397897204001123980051783387581010134360233787815050097145245719850799600935968141068432689008170876871728868900077636376388859362500731985150875761943006125056166681671120054543481220473384000515261296707924066004471227231368547650041328951136428038000333984323776858117003781641382510873430031602406410693633600228993591058945310002458265806139285730026264012601777685400273421349784755383002,
  296013814124278410535181683013474107205289189989265219614051150911845214840930492509364528146029004840992475279849601047657667693780873820461035923928386541104416014742206414278043242900798893294080423613225986813849804152692955446191124040753058486731760570391054251058587394603714451456647592188036193881605154025670352544577975519774703432654040530406284033409523088984982270325016586061901892503159990677196617382030699923257401018530297962350034950051502888262423641749050027952706767314669540261000647070507012202410219119337286279023101393754929477820229765818862604615702291226047277167366021825717268115861590207234527926871860401961290246862206198018501510712299502340173958660884966844101630104400028033968015220251271057058420141547965065670519201310434097012284815012673347937355014960124152327103782029101124418326976577773010136627121551491270097255839067862834400936475169930980277008173052066026863920077723270635935982800732306518779076785006126148925984458010054577354480521755100515355982528313325004473579509670251710041334036608918657900334076776231277092003782960979083364640031603608051156907600228991592870616884002457928473875688080026256406162983155200273313695611834886002,
  319710314788991890535588345651584880905296049789558629537051162282491947916790492694512971651999304843953049673993565047704141425777698170461107515840226751504417096645946942187043258933948129398610423846134531901448104156008175332938086040799277028718577100391117333141519601603715293980727955738036204887793792174430352685134924725542603434407924170237585033430895025769556640325270760360315655103162939180411650638030733264208752761160298329607419644829302892200402784647639027993780471735791370261042286123634850802410629062165885829023105309806638181070221012845377170537102194478074291482613021853929702934288430207471030412962491401963203671070264028018516431778416552460174070653781769719501630912236005393970015225842185884888990141585023910469491501310668898697030870012687537858390679820124233929425333100901124863708808316154010138927520334219960097367909726000726400936988253381676631008175250172512527140077810958672708838500732630376419581878006127248646884941150054611397290335857400515451014008681474004475937203013092240041339126897220426400334169186756787431003784277884214336360031604804126185399600228989538923649364002457591353270875930026248817386295215500273206356643172002002,
  345260380459529810536026179214952576705210342464168885887050174489076901301730492892983646895071604847122030715110791047753814233346759440461183924527166588304418249661445628801043275996077875085580424093630343519261404159525908944601229040848247602218711740391184074260642671703716184080058433637036216498589657932160352833197892859013203436252787577776970033453342985043596360325537344565153578203166027160203967535030768131738733784890298713124219049203002896306774491466241027103654858297300290251085580229950362302411054683493761479023109369760651298200221050387204302881602197839887476515253021883052576146455010207714813863008799001965173168101219776018531768066138898730174185598241984498001631740176010760160015231564052120237170141622896674497770301310908515858026616012701998238521505200124316969336852446101125316297088995967010141261851251011970097481474072915421600937507449566049461008177471377076940770077899445745998623400732956736452342936006128355353832047370054645609964139056100515546391147519333004478300298183594270041344221962516290000334261554791403716003785592097257839860031605994651691265000228987429547463462002457254445918021600026241246214381009100273099331496982028002,
  372805601651430810536497515856317784905211135227351248073050187591524635781840493105710743240789404850513707218026649047806900467935197120461265465240343206204419478332417017840043294151339540027600424356600273080197004163258155286246546040900129018195111300391254679928353961103717124353534946285036228746091852457830352989153868114324303438193182081041695033476919150494179170325816921574930219303169260955292004777030804592902314839580299113589930217938102810058842425506592026108107781921778270251130592056505251502411496553314602408023113578631775974110221089249993524575202110131498280250173020913113514672852790207966088320860648501967200271805046128018547530314492763650174303566208756355801632588680189905046015237419672676690290141661599573008071801311153037305576428012716733666007141680124401469103901429501125776192797708697010143630539690065220097596548627469463900938032817032884954008179715866586510770077988737120706679800733285611550402383006129469071246262820054679992814283649000515642113938733673004480668781917931020041349321766044975400334353879776368554003786903617615871550031607179643570194300228985265069781708002456917753391285140026233692590126235800272992618799535378002,
  402498124878651590537004857936293103305211987310724241404050201653945456568230493333692243172087404854143321437016558047863628449770111290461352473284409035904420787484545115319043313467766017190100424635983456518321304167217602196820954040955088959125852410391329366820233617703718117537216863961036241664044186796360353153409072584921903440233878230030551033501678139328065550326110100578555023203172647180597485012030842717573931516520299531721990032873502810505250609469907026112743739909105880251177386523721206502411955261252556803023117941599923328530221129477709505669502110490696074975398020944140929534559910208225069474239408101969286554928316788018563729518607974500174424631232220250301633458218271265801015243411904598404580141701149109834679501311402553295642212012731748796801867820124487451286436973801126243498092872122010146034015344202050097713150049510454700938564414735635178008181983828884013410078078838079770916200733617014404556568006130589823519117040054714546151246281800515738182371659382004483042640902445520041354426269101663200334446161156145368003788212444737993770031608359117701094200228983045816636275002456581277245989780026226156456634399100272886217185099259002,
  434501420231580290537550890132774306605212903044691289438050216744920090174790493577994161167238104858027130930215841047924241352442611800461445305256198691404422182242461425134043334017499364901320424932774300082248404171417664618454071040101330445814142750381408363360689438603719166511311042345036255287916389052430353326389882290033303442379875945389472033527677111186235660326417518191586951903176192738758717967030882578560686306030299968266854165640202810970645251445966026117569913054493140251226030882059162302412431417200111580023122464015220847480221171115695126615902110861952922495495020976164036532379950208491978794932440101971433630020688012018580376935292434620174548868502000168201634349269744900682015249543659986735680141741562081881230201311657155550038452012747048355391816470124574938741972651801126718316322922147010148472712242426690097831295140645425800939102302033821548008184275452789621690078169753924121372900733950957723133059006131717635012669630054749270283623472600515834596431071811004485421861774174250041359535433038660100334538398378411166003789518578120962380031609533089945769400228980772112376908002456245019018795690026218637757226015700272780125295879641002,
  468991103355710370538138492389564489305213887067854217042050232937803197526090493839755056418239104862182474323898730047988998141873999090461544340357614337304423668047713824810043355877031422142720425248025631091211204175872524920670716040107496240314636090381491910338231955403720274307498391934036269654989168706690353508543789477303603444636415117733419033554975881726590870326739839639435619303179904832101826131030924251719878427720291042400111562493002711455798481171991026122593750275160770251276594791146347802412925651975434747023127151403272851080221214210711966033102111245650655287403020100921287742857300198767043682175805001973643150360571161018597484088715811290174676354880293419001635262324044379256015255817906940552670141782855583667341101311916937276857745012762637135640282660124663954628764450001127200752037066681010150947068781593930097951000845015701400939646538694431964008186590928101903900078261489972635038900734287454231767021006132852530058997740054784165518127189100515931356097199123004487806431121364060041364649219266059400334630590894049232003790822017308350290031610701576148610200228978444279678703002455908980227871030026211136435437863300272674341781963830002,
  506155815586150890538770753760821570505214944348382953740050250311046934816510494120190836573706204866627841215248470047105817457290654110451649981787038796404425250677782265046043379127458067633870425582852022460209104180597175386015482040114026006718116810381580261551823231703721444116619136183036284804443313999160353700340409064118203447008986676779630033583637041065997250327077759989358601003183790975087226607030967816081018517330291089973266426368802711961512374716890026127822978107403710251329150401435044402413438617999735569023132009470573029110221258810981896235802111642182454529902020104331834164236510199050497609291241301975916810900365203018615062776204369150174807168935549360101636197880731649525015262237670510415550141825047011934775001312181993191129396012778520001641211760124754522409021553801127690910996102836010153457527758194920098072284250072520400940197184893313919008188930445598799870078354051562090172800734626516673177360006133994532959685850054819232159580503500516028461345734819004490196335483992940041369767589252395600334722738157141747003792122761890178000031611864592136287600228976062639549952002455573162373062170026203652435022209000272568865301263580002,
  546198166245320700539450987211652143305216080206827686864050268948545849279420494420599870736179104871382946466387796047113206424694845550451762658213827577004426936266200331906043403854747870956010425938433300253454704185607462968898756040120940566634129400381673684489810265703722679296733642047036300777453005959120353902272531158331803449503344150219696033613726077280241660327432005433173416203187859007249315941030101335397249055890281139630188866570202712488620058842206026133265610521545150251383772438468943202413970989995210974023137044110073126250221304966229814516002112051953164901312020107851218847058060199342580273643832201978256349231615251018633125074148837860174941390976751674001637156449684922080015268806033666778090141868154070313700601312452419535712644012794701888580881870124846665852142077401128188900183296967010156004536400256200098195162587353208000940754301216561405008191294197038571010078447444047120050600734968157806942436006135143667985317230054854470510913332100516125912147850271004492591561354285440041374890504525293400334814839624962273003793420811502543180031613022153717445100228973627511339927002455237566936062610026196185699946041300272463694519458610002,
  589335741379990820531018274543912624805117300340468172305050288940004477315680494742368431052355704876468809157416709047121097973430057680451882825340686534204428731323844933111043430150025923625860426316018244002126804190920136445056859040128261894663336730381772461043024678003723983381576471596036317617283540696860354114857221680963803452125515733069422033645311505168265930327803334622674611503192117106647953142030106095115302908560281191458292187799802713037986853954846026138929959064793410251440538289835189402414523465704162909023142261406911964800221352727727538852802112475379617468805020111482706984499390199643537749988673601980663546570475140018651683344027286570175079103088313773601638138551289613772015275526138282391120141912194774049727701312728314102426776012811187803607865540124940409037973977001128694827815327856010158588546399353230098319653233257995600941317948661897158008193682375160727050078541672800166129700735312390409275213006136299959374967890054889880873158254800516223708470207473004494992095177229250041380017926672103500334906894757968454003794716165827253660031614174276682403200228971139212746674002454902195380580130026188736174390298300272358828109940626002,
  635802183499993250531096983778218821005118610849300951443050310381329097498520495086976483407506204881907836482021360047129525376500079510452010967559010703604430642761459754994043458109873679641190426716928490020995404196552896074847058040136013180121547830381876888253703879003725360089422095636036335369393659874630354338636973197943703454881816889067547033678465000494981640328192540059820200403196573803850991513030111069694818530220281245548493250247402713610511456923805026144824643342302090251499528094882277202415096766629885232023147667644309089080221402148338897340002112912890960860021020115229655363819550199953622647275293301983140228763853730018670750238544956890175220389165596617201639144716632392865015282401186129071990141957187454792275601313009776253419879012827982826711296990125035776360101134701129208803353292819010161210013942736130098445773709827384400941888188640049307008196095173686926860078636743211430663100735659227272798169006137463431335701570054925463545446387600516321850274971775004497397923351087660041385149817340539900334998903019794257003796008824591460700031615320976802865600228968598059824699002454567049152501820026181303802749101000272254264753757846002,
  685848347185908270531181634829340890505120018263771642710050333375045181276110495456003848978602104887723912885964042047138524049224292940452147599702543913704432677913481707853043487836645678865260427142562648483934504110252444590973506039144218891953799300381987279101966288803726813332381544683036354081542698007520354574180908156825003457778863506571546033713261539935369250328600449543829174903110123799646780882029116268439196185230281301995346271061202714207127165073459026150958601847045040251560824837286313802415691638799935881023153269309627431300221453282566041354302113364929000912471020119095514753005490191027309426898073101885688267316635590018690338707893072920175365334951058752201640175487698368740015289434439889019440142003150765444966401313296906942778401012845092111607511210125132792529154762901129730937513777167010163869399745569680098573541685520075000942465082976122743008198532787321855490078732660688828774900736008681206317681006138634108042067200054961218825003357500516420337519824782004499809032227913740041390286138239305800335090863877242479003797298787567295680031616462269831624900228966004366992756002454232129680059020026173888529628995100272150003139559993002,
  739743535757654030531272665505027577105121529574366288512050358030742179837130495851136759715224204893942494766443506047148131683265918700452293268905017466704434844563243328452043519438804072572170427594400645567507404110885454887773007039152904846997407090382103963331653433003728347226150134184036373803902764248430354822086036815569903460823585632296598033749779546951111020329027927677410714503110611896425448243029121701037380192310281360897181479454502714828803142705707026157341103149421470251624514440550331002416308853552425037023159073100609495230221506186597013114902113831948548999442020123083832344702850191060221877704253601888309580440367001018710462006128653810175514028071048243001641231417571468785015296629224180842140142050103685078613201313589808738379334012862520886635096830125231482576150216001130261342279986450010166567169083282570098702974975991346300943048693910964594008200995411754075310078829430657939880300736360765034597926006139812013635598110054997147007145338800516519170157977325004502225408114060260041395426851138710500335182776800276984003798586054571509200031617598171502280000228963358447041485002453897438373989310026166490299848164500272046041963543736002,
  797776824541720650531370545078877062405123152263182974493050384465547387088290496274174832210453204810059071106902163046158388388800103790452448556567741594204437150969628061610043553031271918870290428074008302549774404111556408479025381039162098281760537210382227288317436009003729966100227307144036394589176185774020355082978572246569303464023241807186017033788101043839989310329475877434428638503111122638481200109029127377579112480070281422356248792130502715476545731545536026163981757457831710251690685866523781602416949208345967323023165085931791676420221560918354599055602114314417779236356020127198254258687980191094126935946515901891006134123811895018731133697677400750175666558073246437001642313070638046945015303988926600483820142098065523907506801313888585843987203012880274455658427760125331871855849303301130800130912942272010169303791824031200098834091544871994800943639084102524628008203483243656852300078927058561958651500736715491598134519006140997172224313070055033248385275157800516618348138182454004504647037270689350041400571917871280500335274641262015099003799870625465108100031618728697528954900228960660611141151002453562976627698500026159109058435686300271942379929398712002,
  860258476642945130531475776494735790605124894337612619387050412804630726234240496727038485897746804810769747013857817046169336845301248090452614080443455460704439605895259499998043588735806266515830428583042164356928204112267511141996417039171827927890811030382357619975168871503731674508630578321036416492718449684180355357515304898092503467385434029675865033828311810207548780329945241791389811003111657034989965789029133308570760647270281486478866681034902716151399806547656026170890528561793150251759431217031735302417613527593962615023171314941101441950221617537546501107702114812818594775262020131442528104157900191129052640167378001893779943225783747018752367663961746010175823016464773565301643421022793768035015311516998777221120142147055928329600601314193344121597908012898358198979718830125433986050148231101131347417962741357010172079742461273300098966909504547764000944236316627209906008205996480688959750079025549861645414700737072873752927864006142189607882219600055069523250878489100516717871404748678004507073905914280250041405721300332366800335366456738719675003801152500153000550031619853863606019600228957911168849233002453228745817419040026151744750630749200271839015748253743002,
  927521457518588920531588898721521554405126764366265984548050443181742421409990497211776833069334204811529357320163172046181022461456303350452790496843091249204442218636310033251043626681392098962750429123254590685249804113021092880642322039182124091516787930382495343717571440803733477241126544602036439572666890535340355646385039298374403470918123372623486033870501548120072680321043700542523288403012216138238655097029139504951741053090281553375576410977802716854450178544973026178077746169493350251830845838705664902418302663523886966023177767496642210310221676105716858703002115327647003399499020135820505603138530191165027766169134001896633072590666434018774178110156189560175983496750966284701644555861653811936015319216957444909650142197094886031252001314504191114031178012916777574259653920125537851171491218301131903319279877649010174895500146451480099101447116939092400944840454981233554008208535321495452820079124910035275936600737432924370255870006143389344648819140055105971893520120700516817739897553117004509506000217137140041410874960480743700335458222709791390003802431678583638390031620973685407817200228955110428118096002452894747302369440026144397321881892000271735948138623856002,
  999923055069821320531710489268461327005128771517292609453050475739785636668400497730576069863320504812341183487945161046193493544739654260452978502972476915204444999054018962588043667004658266623770429696499123493034404113819614695422805039193018736653898190382640865457406071803735379335002952560036463890075381286270355950310095595284703474629646281225077033914764054207934890321095219647998589203012801045386493242029145978111558165750281623161301830441202717586823045266344026185554118652037270251905028431110401502419017497062293538023184451203670890760221736686299155115902115859413502635399020140336145276341300191202081844921566001899567638187046014018796579572072071080176148094474837439701645718186766443061015327092385528664180142248202731157161701314821236067773963012935538117446644500125643493566309891901132467952026627982010177751548721787670099237722794281418200945451563081958119008211099965708421970079225144578590695900737795656336446522006144596406528614020055142594600840285600516917953552054904004511943306307891760041416032860339196400335549938657760791003803708160748661980031622088178588393000228952258695302571002452560982424910980026137066717846239400271633175826357448002,
  107784661240974270521841166871379422505130925599246561760050510631426292638850498285768399113254604813208721115470051046206801481215624530453178839406390410604447957608014977165043709850316594179990421030473614535577004014665675709631116039204545572875510870382794612660426875403737386087406881140036489509055296504510356270047878735767403478528731580333942033961197398998676820321149188840495517703013412900294998132029152739907482105350281695955514904742002718349687492296929026193330746206990120251982081158264298202419758938746240830023191373911773162090221799344670542454502116408643474602158020144993515192821740191240245180867518001810258580826988026017819586923173970350176316907257228455601646908609829991037015335146933247151300142300400149546173801315144589956076584012954645443714765590125750939918488574901133041434688500805010180648376753185170099375755099905721700946069705269232721008213690613947718940079326259004743610100738161082552649915006145810817490616010055179391658551059900517018512299308482004514385810272007270041421194961995105700335641604068280285003804981946682548770031623197358781234100228949356275167551002452227452510702700026129752884388736000271530697544584146002]

/-- Rows from 700 on. -/
def besselRows7 : List Nat := [
  116170338093986650521981594361357458105133237104663640057050548019742406872820498879841517803164204814135693523899987046221000926166794240453392292707787757104451105391542983153043755371625411682570421095003884391154904015562020670358923039216740147459364770382957035450476024703739503068275212255036516496923028235290356606392518205634203482624518220726828033100990411376988850311205720186720654503014052895429144561029159802682887066480281771882407186876002719144257045603580026201419134454195820252062109763652445402420527929661885441023198543722241698860221864148207620517002116975877590826359020149796795784821730191279548870634323401810568980456664311017843215381729967400176490034837664971101648127754913289034015343384319230688270142353708184033624601315474365502303976012974105248410438220125860217252855606501133623887085748825010183586477563242260099515562749019596800946694946306724836008216307467821658020079428258844250227900738529215934610306006147032601467858440055216363350432880400517119416065977227004516833498152281970041426361227601028400335733218430116283003806253036462262550031624301241599003900228946403470895537002451894158868855760026122455767581380700271428512033662919002,
  125193450186980050522132481727816009205135717256525004826050588078915447581240499515448703825533304815126066181482480046236150006180166950453619698200457926704454454168700628455043803730878823101300421163459949839152904016511547843100020039229639942229539830383128607769213469103741736133884719212036544924354346880690356960176581370082003486926573795031256033106099138522297560311264930674119973203014722273832347952029167179286274047020281851071067427444002719971791277295192026209831208477206330252145223688835304602421325442410993039023205968995662663210221931166343705302702117561672227250983020154750282729198930191320024822159167501810888190348788047017867480518097972050176667579115926187501649376258679615192015351808331655318990142408148239820841501315810677203543739012993923308007882190125971352938700653901134215430384944481010186566349264370440099657164609488482500947327351383245722008218950729927693440079531149644935326400738900069412437266006148261782356908600055253509958331070500517220664774346910004519286355949346700041431531619375265700335824781235141091003807521430206904930031625399842633287400228943400584094135002451561102792086140026115175313702467300271326618041130732002,
  134901312485034520522294589388842387905138378057793191491050630994966342833850491019541953881031904716184062015265981046252310533359007940453861942903812113304458016413795505995043855099923094284480421236073610503805804017517317319927202039243284475324597660383309828593080152103744091441050318065036574865545912017790357332272863581602303491444913855256634033111457125829047840311326942417854324303015422331177994327029174883091002121000281933655665531742502720833597466341247026218579327324066310252231536195758177702422152482106143761023213658359715933670222000470627624046802118166599889675338020159858389896882740191361705774236695601811216443736263207017892398262150453180176849644194338987101650654770614185827015360422829393071900142463742089912530701316153641354473391012101410548107342180116084374693318282301134816187110619429010189588494792024650099800579702617390900947966986114070388008221620603853070500079634936971880087800739273655930377191006149498384017382900055290831762152497700517322258342339421004521744369622164670041436706099602425300335916291978324751003808787128077367510031626493177454335600228940347914803620002451228285556865630026107911469235814000271225014321651584002,
  145344667295947390522468731682411244505141232344218094766050676966538948541180491092277130597986204717314177663336736046269548232365833250454119968638992520204461805352939935489043909660701613865130421313089935905663004018582559762147258039257715408133385510383501223210213303103746575462001282340036606398384250994620357723596258351005503496190022065123982033117076084740138680311391882876094351203016154417900336504029182928015753275490282019775643078461202721731032316021336026227676298981564860252321164492869520202423010087395424929023221620717194643360222072134784074204302118791249649865325020165125652371810370191404625316497206801811553979569916728017917984910839822830177036336420807364001651963953255246026015369231743178567640142520511880622625901316503376071488398012103465770923866070116199310585577627201135426281156966592010192653421938033390099945827203932634700948613916542250456008224317294175449630079739626407368503900739649988446583756006150742430271464330055328329039862253200517424196683526498004524207525088527730041441884630633981100336007750157726970003810050130275987750031627581261610821000228937245761504388002450895708423572420026100664180870014200271123699636966117002,
  156577926388683170522655780593019015005144293840622869448050726205733949551030491170072110430175204718521200723643446046287932981041841310454394775315990267504465835008006464893043967605829956030280421394768001163701804019710685599360160039272976657651438560383703344560157123703749194999966545258036639604622536807600358135105711014256503410117287122171865032122968255654142460311459885073953680303016919941407678022029191328545756704250282109575910621629402722665503729935986026237135395837514960252414229865159417702423899331517428386023229865254249776290222146234775584964102119436227592581136020170556729540847750191448817909824117201811901042647150887017944257135906904110177227764432588829401653304482428808932015378239076792196460142578480137149439101316860001317093998012105558601818263410116316189039518665901136045837799607058010195761643384044340091009292644396418300849268209139922569008227041006463509530079845223550833570900740029079932888830006151993944903421770055366002067480451800517526479707143526004526675808225552890041447067174888821500336099155274488945003811310437046206330031628664110629587200228934094421124403002450563372636638700026093433395497659100271022672755841398002,
  168659429780646760522856669729180724105147577220892779895050778938996348994520491253269872265680604719810228058711570046307539065389933770454687424411991043204470120243073767212043102913920265284450411481381662150459304020905294707910033039289114514522756370383916774639340800603751957205501571618036674570065510690380358567806259466317903410640494518232904032129146430845775990311531087836390489403017720368380864164029200099754799265520282203207052004048602723638472648459341026246970370645980540252510857808232092502424821323387385591023238401448865655550222222848866120379602120102157273771185020176156408256197290191494318907219252101812257883743220360017971231991734773880177424039200828376701654677047487088990015387448908260028350142637669769220613001317223638924561798012107689651862292680116435038837974695501136674983707419115010198913676735067850091024189690902791200849929930809608995008229791947277521390079951734018802647900740410943374572583006153252951659131000055403851119079076700517629107318103455004529149204870174560041452253694853796000336190506832825065003812568048672224730031629741740015410200228930894189046624002450231279424699040026086219060214585800270921932454021328002,
  181651722311338760523072398568224248605151098171903931308050835408059892884200491342236032033111704721186685218974463046328445449752743440454999042651726560104474676813499510394043109447663336696250411573220372144048004022170186592835384039306177767044244870384142125975431825503754869593590721256036711384762909657510359022751165681304903411189826173376994032135623978337112720311605636030419885203018557227160208308029209257328049748040282300825535918083802724651454947576117026257195473010855530252611178166529833002425777208715299579023247239079572347410222302057686364389602120789680190189429020181929606071853840191541164575124945301812624759745182599017998926923350459830177625274075861797601656082351550680707015396865391070671340142698104076808690501317594412622854086012109859540731585850116555889126221484901137313846954431719010202110044553129910091039275824200825500850599148885513240008232570324169899170071005916344484249300640795591770133462006154519474245598310055441876466778900200517732079417010787004531627700819637360041457444153084248400336281804340014684003813822965478666960031630814165250760900228927645359116485002449899430000735220026079021122319121200270821477514177431002,
  195621849192825210523304036985863441505154873461643538301050895870951979767950491437360296287604604722656347051057104046350736063063645950455330825901196762204479521417764005652043116384653024243870411670590042122741504023509371098590210039324217831423063350384380043173813020903757940061560505200036750143211774375170359501044141888565903411766539644293496032142414866757179990311683680816991668203019432110224087457029218817585725465380282402593934956878702725706023402099701026267825466403596110252715325275828594502426768171156951388023256388234401110530222383944300728689002121499456260696369020187881374555676110191589392115211882801813001933788569434017102735977457689830167831584833299505701657521111754530894015406492755409256020142759806755917903101317972448061817395012112068896806575420116678769415652958101137962557031780778010205351274391026230091054553024314088000851275931134808308008235376345685723240071016751747950363900641183038131057811006155793536330486030055480078380746471700517835395900175566004534111281831984920041462638512204548100336373047306393715003815075187830240250031631881401795569700228924348223649116002449567825562221380026071839529311315300270721306725859981002,
  210641671805018110523552730089143979405158921011789014856050960603062820317060491539058006527713404724225359561165667046374500102097919910455684043286747246904484671752236061323043123749060830289290411773813946955134704024927079675033449039343288888590774900384631204539579500103761176907840694362036790944568028730020351000384167543349403312371950752886398032149533691229032650311765379912901150503020346676762555745029228797507630684280282508681152407003802726803809715331972026278875645731395240252823438110129039102427795433498683885023265859320089199820222468594276125517602122232164319511186020194016902678693690191639039686641958401813389675396830051017105654879633768060168043089720902916101658994059497756993015416335309408769110142822801904442975801318357872837648012012114318357274339180116803709587483690601138621244859729815010208637898826184730091070023287079569800851960345758919767008238210221363240840071027680179026432000641573295481589593006157075161541640000055518457129191205100517939056659627606004536599933626551090041467836734908616300336464235245346368003816324716131402310031632943465086998300228921003073436879002449236467291267840026064674228892188300270621418885449622002,
  226788205086155060523819703372535428805163259975029718763050102989828283905940481647771779742940804725900263107757296046399832352702950640456060041552136776804490146569020454956043131566464086198970411883233679850719704026427777226458736039363448027892332690384896323778604683603764588851611846553036833892867738835390351053235545651401703313007436179816467032156995700324833370311850897863113689903021302655349437513029239214758597325870282619262657041127902727946506617283442026290361855472512680252935660433069807202428860258876885291023275663071540448510222556095752548132602122988502621686065020200341520283274620191690146428815367601813788260623594409017108651265511705690168259909506264718801660501940697359729015426397440418906070142887114028100545101318750816518631103012116608568231364000116930739896478165601139290042799753487010211970455494627520091085688624225981500852652461394801599008241072161734340010071038702206147391600641966376858499340006158364373466619730055557012978362502100518043061583130588004539093641884444940041473038783960440700336555367673296651003817571550826024990031634000370539211200228917610197756582002448905356354761810026057525168962977400270521812796109376002,
  244143977956554060524106268218196941605167910817432751206050110407021255149070481763973251015366704727688017001917902046426833530041022520456460249666915922304495965737054853946043139863925201197990411999210157553513104028016174572778347039384755397982835260385176151781385363403768185053379509390036879097258476505620351108785491315542803313674436168728239032164816824131019840311940406323897551303022301846716483358029250087714859416630282734520726177761702729135870033638563026302300508395983140253052140953993469302429963952033121229023285810561548236080222646539515502887502123769189361080902020206860701631831790191742752484611514401814197972197808776017111727044157778040168482167525305180701662045516045882587015436683616292663830142952768046433940701319151410671155653012118940184787235840117059890974706865201139969084666684714010215349487125035520091101551063452070400853352347116205762008243962378324996500071049818399429571700642362295310853393006159661195652230170055595746192546977100518147410554196459004541592392249036770041478244622194587400336646444109699971003818815692397063810031635052133543154700228914169884376818002448574493904509500026050392297624367800270422487267737005002,
  262797418306870880524413827762773996705172895406172815662050118345344940465840481888164924340579604729596025598358783046455610638935747960456886183700158842304410215030663284274042148670075236159310412122124678884394304029697241553373303039407274365280460960385471478493542655503771975136517104198036926672241230037990351167166985796202703314374457345679909032173013703467201740312034084357173771903023346126633294978029261435491393784690282854644697283283802730373721327715315026314708604883390220253173033488798980402431107860605886150023296313210787585620222740019070337680102124574963201121476020213580069037765230191796899024133350701814619099671794580017114884167933936650168709989731596487801663625561273069453015447198386690865460143019789298892013401319559788886007388012121313871169260250117191193835329368101140658505740925451010218775541572915960091117612648504927700854060072434945230008246881083655696580071061029330664931200642761063899782187006160965651604055040055634657034065705900518252103452099598004544096170326441090041483454212516705800336737464077034568003820057141366226610031636098769466336200228910682419565254002448243881077374440026043275563175756100270323441116917851002,
  282843264181165880524743883154496274705178237102965875527050126840495633928370482020882138194608704731632165964679093046486277355473871400457339451974350106904410872257753900775042158015202030550130412252380039367042704031476220805589138039431071680340230260385783134877030572203775969209821329429036976737923323797270351228519325136879503315109075658471213032181603720304077020312132118736506558103024437448896853409029273277970260582430282979831228400341702731661949617736081026327603752870919440253298497125718195502432293376459971398023307182798083314450222836630718512698802125406583818631085020220505396580380210191852628268965040201815051939572283643017118124633391942660168943504746527556001665242867411574680015457946384404836390143088203550982827101319976086804942351012123730300828022360117324679876404645801141358442780721396010222249171854872570091133875439258325000854775707302150896008249828491241835620071072335573315245800643162695698249310006162277764785994110055673745763271627700518357140151891428004546604961685998860041488667517904023600336828427100793074003821295898293646770031637140293652609300228907148088095854002447913518995416910026036174914114477600270224673166877971002,
  304383002890307310525098040225844671405183960863567241855050135930551711684220482162695152755086604733804817221531399046518954431077989430457821760515025867004411570617099176742042167931343122358720412390401704807204304033358642251385086039456217652530102100386111994966285004403780177891125812773036102942028282729010341292988408630516503315879939440744847032190605029427327840312234704265172611303025577848434614082029285635829978288160283110284567695228602733002514171793430026341004188430377290253428696396157316202433521937054468902023318431470961292990222936473635860084102126264832461029369020227642613905536340191909983516952844801815496795554482278017121450482184067140169182843910321207601666898241066774965015468932326697414140143158037000502746401320400442147542225012126190156543885090117460380884728281501142069034034499577010225770936182972860091150341511791028200855499322109521118008252804815594088880071083737702506236700643567203790819441006163597558619801000055713012638546934100518462520524414785004549118751860758250041493884501405843500336919332709473853003822531963777555120031638176721421962700228903567173256144002447583408766029370026029090299135075900270126182247437760002,
  327525339903193540525478016608647289805190093343716896574050145656128375754190482314211366088808804736122891651605104046553770120333169380458334918812610868404412312610559990475042178452383713056370412536639046837119604035350338327252956039482786333408676760386458978023736816103784612332020736969036108485144495469810341360727039938322203316688772605928805032200036591396233630312342044106763826803026769444525271566029298530575969012280283246216832426385302734397446882968825026354928797008438440253563801450748391602434795026850459273023330071756490072040223039649952880526702127150512517200593020234997810113838100191969009167519503501815953978559219118017124863801990635970169428141333916706601668592504690739975015480161016662524280143229316283841810701320832994738354601012128694130534436780117598329039697142501142790419253269928010229341397999219080091167012958465127600856230987690565317008255810272218758480071095236295021656300643974601273426703006164925056484623850055752457916300578900518568244436318525004551637526347952640041499105126144024600337010180434572486003823765338453957310031639208068070308700228899939956854383002447253551482073780026022021667128533300270027967194965929002,
  352386699482096290525885649320150939005196663011938315659050156060542175459810482476077667043756304738595867680896684046590860633921272600458880845913775470504413100887754950513042189614159942412830412691566643584838704037457459994194014039510855709222160900386825050799309621103789284243728214449036114316997097658390341431895241392625103317537377976280645032209918206847526280312454350128793717703028014444141433692029311984572111068060283387848297645244002735848854827131084026369397135343879020253703988240759355202436114178759455128023342116572420269000223146264837125536002128064450102337587020242577237738187650192029750747522345801816423806973231014017128366727464683960169679533951729866101670326496860412290015491637344603506470143302068482365978101321273886534319444012131242924562888570117738556917201141801143522739703089646010232961126010112490091183891888004339100856970775321839888008258845077618090320071106831929297311300644384901253142327006166260281716547700055792081850965823200518674311750072097004554161270609476080041504329355313461200337100969810572953003824996022996309090031640234348869282200228896266719226779002446923948222015320026014968967181526900269930026852333835002,
  379091759154859520526322902850407068005110370026962195193049167189985906890850482648982933034635604741233824841611428046630370618091643950459461576860568698104413938254524933658042201454567751443170412855685648784119704039686493566302821039540507902957634860387211229898730453203794205924185350434036120452116018740160341506660582036953403318427640752501277032220270552196926470312571843259795083903029315145418593814029326021073437017380283535407694950764202737358922906021806026384429454083162400253849438705015592402437480975633702682023354579238629328410223256426577715593202129007494657076606020250387316812586110192092254937665816801816906606792643804017131961441194007880169937161575304115801672101072560055993015503366289430436030143376321128877164301321723261652485226012133837250047433750117881097493542710001144266138177592446010236630694221324860091200980425572336800857718756724178498008261909449290574290071118525185415052400644798116847942648006167603257608140310055831884694997900100518780722323980266004556689970072360300041509557152182557300337191700374939194003826224018115196380031641255579066034500228892547739244580002446594600050055980026007932148575687000269832360068870211002,
  407774020250794700526791877783209481205111123757885086582049179093714526571540482833660681386145204744047480832220004046672453662175385670451007926949655974304314827681867455653042214013677625797150413029525232802674904042044278398332166039571829386409681210387618584265695365503799390286389152912036126905736549483220341585198519978386903319361532129592663032231115216792694850312694753860413229103030673941254933762029340664260016587170283689132521628325402738929916578304487026400046721115244910254000340962489374602438897051799464874023367473488879385710223370246672044939802129980519561240802020258434639034065750192156569599478937401817402711789703433017135650174680886010161020116694786490401573917103468023668015515352920076617980143452102214151571801322181266398015336012136477828171565830118025984149383498901145020759010579873010240350681972459520091218280712851037700858475004063914618008265003605731209610071130316645096701000645214261186476572006168954007407998280055871866698871685800518887476012197885004559223610129246460041514788480093693500337282371668106136003827449324558016290031642271773883038900228888783294321235002446265508016265650026000911160786835700269734965700316259002,
  438576416869807780527294819984838214905111930959845392706049191824242753380870483030891883401388604747048230796730287046717272835733484760451073621166025117404315772315366113366042227333855526704320413213644099237580104044538025474540709039604911202738575830388048237783157646903710485088805979445035133693832322066430341667692759650535403320341113064856402032242474741577588540312823322109017481503032093323046649437029355939272065188520283849269360514547602740564184681339684026416270645647116160254156889510718281102440364094634443969023380813482896198250223487839914725374902130984422762519974020266725972019700170192222743802868690901817912463682815713017139435209339757840161047169579979078501575775478247900398015527602396934486980143529440193557216401322648049292488070012139165389995366050118173250673718763801145786748088676748010244121673971913700091235794908118896600859239589954097413008268127766431748840071142206891697929700645633347407832965006170312554320297490055912028111079502500518994572664744698004561762176138857990041520023302463684600337372983233471130003828671943108659150031643282948517893800228884973660419522002445936673156715200025993905953484256900269637842608781225002,
  471651965805729260527834130397001797505112795332880157907049205437555072823820483241507950853606604750248188952117369046765001257016331810451143482878710894204316775485141646538042241459890332061800413408632080904962404047175336943126413039639849200020162110388501371999240124003711060196268115112035140833149772730030341754335624609279303321368538204154827032254372659317677570312957798402372057603033575884563648225029371872246320064740284016074210939862202742264162346527228026433123703042162370254319285430217668602441883846190527455023394613818777274530223609324488822355102132020127420419620020275268263660671690192290827854260423701818436212309953311017143318877513152220161074889690501478701577677102844082006015540119973311137080143608363993751378001323123761102492202012141900676567766010118322931267879448901146564252864050168010247944260331837220091253525186329182200860012587455700887008271282151880917230071154196510202099000646055388661308026006171678921504343660055952369178128942400519102012127520185004564305653426467960041525261582784235800337463534617385033003829891874587193430031644289118143130900228881119112058554002445608096493603570025986916476529939600269540989662698074002,
  507164460105659040528412375472636964505113720826589045635049219993328900075820483466393905159682704753660232700111840046815822694504074270451217769194269122504317840716352541783042256439128126463900413615111819237661104049964226642644293039676744276310417520388979228983516211403711665845198006150035148341244150929310341845328446508105003322446059972790523032266833536458618540313098443771926308403035124325970629582029388490353727445430284189812831111364902744032374011137491026450629160444033330254487736595056464802443458104863068472023408889545737499390223734822059437714402133088582565817518020284068646575391740192360873325336388101818974315805488453017147303563506150990161103292213836877901579622900781840369015552910996903671040143688903019458583601323608554868519802012144684439039785280118475060549561860101147353422367191254010251819036603183490091271473739188222600860794070078825373008274466983564602420071166286087214029100646480398106172130006173053132074126910055992890144540775300519209794242318532004566854027284368770041530503284622390000337554025369143482003831109119849551650031645290297906027900228877219922320861002445279779035388930025979942679977842700269444405736779902002,
  545289209118115190529032298295632000905114711656529635021049235555171703076120483706491740086862404757298049367215064046869932203394239520451296752631055773904318971740274549728042272321613696051720413833740531301074304052913141669009001039715702636771782750389483114319660599503712303603990839944035156236517141596460341940881970925942203323576032837607192032279883016672259140313245530316304666203036741457998735791029405821838485531830284370761092310238602745871436529646111026468811103209393660254662457889770550002445088727107948359023423656177200802400223864457869694932702134190763776476934020293134442663743950192432933082384089701819527140780512992017151391704639695390161132392653388537401581613813471938410015565980911294631970143771087160330151301324102585934159637012147517438778758000118629673556885396601148154407219761303010255746603810861470091289642775233651400861584111783892951008277682483966023380071178476210953751000646908388911437311006174435209097877730056033591252846947900519317918846843677004569407282972338990041535748371620969600337644455040977951003832323679787219490031646286502928422400228873276362859440002444951721776914510025972984514073145800269348089711976382002,
  586213828064061680529696830428087481805115772321661009103049252190872934228020483962803989468181204761176185724868844046927536799004800830451380722015989574604320172505989998182042289160239601836020414065211868841169404056030985033961368039756836063433141740381001440024073319503612975118819476105035164538256169824770342041216780746679003324760917747161653032293547866158688790313399341650596353003038430206273126069029423896058489510610284559205345288681302747784062387665543026487694462173486460254843671432791755102446777629207690257023438929704246538030223998360839183446602135327673868866654020302473167764511270192507061316265842501820095062506705368017155585792323024210161162206834407021301583650800519848094015579335257467693210143854946797885718201324606011975591961012150400447483544260118786805752477963901148967359647500346010259727568488975470091308034519912616400862382786982834856008280928876565868740071190767471250174300647339374255623624006175825175597625090056074472743588613800519426385774724296004571965405718104530041540996807499012700337734823188046969003833535555326924210031647277748306531800228869288703904684002444623925699535110025966041929251515700269252040475430723002,
  630139080357707670521040910453143503005016907622900814441049269972671669417410484236397512063219404765310100450233339046988856169168415720451469983431912527504321447192719380930042307010903223922900414310257873994098704059327139468288352039800262198181596930381057452891363865103613682117353544225035173266675460177740342146563737817695903326003286757083900032307856020771307670313560173373066699903040193615802016487029442743527226358920284755442799263930002749773063021665435026507305041773203230255031606806575938602448526789087933629023454726609419515620224136663664920368302136500343606650936020312092536418130250192583313573021545201820678465103807907017159888373145557460161192750910015916201585734840039632237015592979675343863080143940512812537775501325118993031388090012153334247300738090118946493027589484501149792433493199598010263762542716162760091326651215659962100863190170540271952008284206385842412850071203160459534735900647773367326526302006177223054548757830056115534855314265400519535194855529011004574528380717805410041546248556052204600337825129368427106003834744747430327460031648264049110772000228865257214271394002444296391771242940025959114876138361900269156256920436976002,
  677279776108415200521117246781059996205018122682864906355049288977540905953670484528407506397057604769716219696993450046105412342780643580441564861218313466104322800222829370965042325932672188646210414569651036510760504062811492425581668039846104839611291920381116501587959033203614426412649733237035182442958925766200342257164443643269203327305827848009242032322836635034912080313728333549933325903042034855632907753029462395957168678380284959781913918572902751841352247761608026527669549052951910255226501294617868002450338248185604426023471063880912780590224279502924888743602137709832426215400020322000466736924630192661746785116622901821277741730776632017164302049988530190161224041367337420701587866928972548921015606919905338415360144027816590699829801325641691532616352012156319630941874380119108771706233412001150629784229736841010267852144151021150091345495121976385800864006337774688011008287515237271604880071215655768834983600648210381320982007006178628868879586010056156777824577884400519644345914781442004577096193136452070041551503581153295700337915373143104069003835951257093717550031649245420385583900228861182161365705002443969120946790390025952203305548106600269060737946397707002,
  727865730452310860521199049633343477505019422966862864103049309287489527049840484840041769146540804774411995955080949046112358591199036310441665699028326113304324236275553163444042345987958611199640414844206457585049904066494462344944995039894494254383055780381178745365770912603615209907220844494035192089304965336310342373271719898766303328671349943750528032338520133129387680313904143218873291803043957223681920654029482886304718422590285172542804829305102753991949802952586026548815623579387030255428600125545913802452214113370154246023487959027132488820224427019184213157802138957229179605442020332205085385031500192742419303347447901821893294780668419017168829483156693960161256095033719259201590048083410438933015621161789938780020144116890031979083301326174272333257208012159357401801642660119273678549356500301151479568973175541010271996996067631520091364568515506569000864831364459596057008290855657327131450071228253993768121900648650429444635878006180042641470908330056198201885937244200519753838773975584004579668828108387830041556761846752527100338005554075963739003837155085347706180031650221877149260500228857063811192019002443642114167814500025945307168483439400268965482458781896002,
  782142785592591330521286701028087030505020814305227069245049330989882999569380485172585211418717904779415970388161764046119750602492348860441772860945066548304325760301460892844042367242702607871230415134784125619985604070387026233789495039945567503778178560381244351551919894303616034597291500435035202228973249790330342495150109582319303330102788137665997032354938261914212040314087936911950280103045964151742351228029504248816752962390285394057662758619502756227985002275854026570771868291703560255638156724494141502454156558919269069023505430091654387910224579357104034309702140243652895257926020342714732670251140192825390929416582101822525536079329369017173473391530396580161288929083064318701592279338923954441015635711275303613910144207765556454241001326716902740929040012162448374077108430119441250759036630601152341946495926521010276197727391169080091383873690117264200865665326824696428008294227873480454950071240955730534503200649093524911707547006181464395155577670056239807271952180500519863673250591010004582246270737743880041562023316878037100338095671733783172003838356233256924020031651193434393777000228852902428359865002443315372362957580025938426416134593600268870489369083354002,
  840373900672329630521380609018664849305022302917057713361049354177783934350570485527404648086822304784747838848258582046127616212740739640441886732660536703004327377537719804542042389766565554603610415442291309523789404074500748634723173039999468786160712220381313495943986825003616902577248736384035212886333582915390342623076399653065403331603209135483415032372124146071742580314280063198675322203048059210678767877029526519078827652400285624671187257754302758552700515461973026593567881315005580255855432971954991902456167828550488903023523495668581687760224736665553146045502141570253556917450020353537967750114940192910722949190587901823174887087951412017178236553738369030161322561042264507201594561750895691595015650574412883289920144300476112039383401327269752547927598012165593372887952320119611525982709048501153217077239973445010280454972733605490091403412956975349900866508301557028741008297632114200825100071253761576911076200649539680944757987006182894152718072100056281594213183011200519973849158108262004584828506098896210041567287955636272500338185725686221542003839554701919720780031652160107084626700228848698276090802002442988896447988890025931560999878605200268775757594779371002,
  902840313863133220521481209422911827505023895435471040683049378950313704460840485905953876213362304790428521777946619046135984948049656790442007722720490057904329093524185887029042413633133592243290415767685075396954004078847812043523388039105634979609487020371386363223910570503617816044296049465035224086916924528890342757340166038228703333175816923150617032390112345450077210314480885249939138703050246115813179501029549734065090760760285864741035042379602760969456266763596026617234288764952620256080699470320557202458250237510209764023542174918314284410224899097722459175602142938212901134087020364683573954489340192998478166653176201823841779109563149017183121809351539600161357008797740276501596896394858287555015665757361062030460144395055181934583001327832994062580718012168793234397727420119784542317420892001154105123330160643010284769372429500970091423188644625837800867360365802114581008301068608955262860071266672132244783000649988910774455294006184331936894066240056323562938188954200520084366306024189004587415519236916040041572555727212381900338275715505811086003840750492467864760031653121910160653500228844451616225186002442662687325922970025924710871278584400268681286059289748002,
  969842781328737970521588967664141334405025598934443364162049405413036386621250486309779059503476104796480238222242037046144888124219041900442136263838834226004330914120370802527042438920131903671070416111974932753622604083441048848310910039111637010089793260371463147391377336703618777303319841821035235857468667866440342898244341926167103334823958668609778032408938914689228240314690781423580260003052528732510025439029573932189968437770286114638283616979902763481733461748034026641802778572726970256314235818326436202460406174721580155023561487583739570660225066811242358354402144348745233750035020376160564227098200193088720938566918601824526653499523985017188132060098212870161392290602087354801599284366837545983015681266386821937290144491536792164165101328406802140921705012172048805936146920119960338314114325501155006248587545091010289141572571887770091443203099069859200868221597165095239008304537588208524670071279687997445921300650441227639341581006185777770370006430056365713673526679000520195224499867449004590007295168026120041577826595870614800338365640767948068003841943606066244970031654078858533896900228840162709229074002442336745887139320025917875982082985300268587073691936104002,
  104170289801481920511704380731039192605027420957348922776049433678366364754160486740524436693749504710292658418458474045154358952116542420442272814285332164004332845523330181926042465709650313926150416476225616714642904088293974863293325039117969753544403600371544052217584734103619788771977569097035248226004266733660343046105810298022403336551130866722621032428641465217342300314910145872378969003054911081966956583029599153361679169540286374747910637650002766093138744942676026667306135360064990256556330893616805002462638104992833957023581454006855243740225239968303018975102145803098265786132020387978186688355420193181517209856603101825229961880089225017193270271100939740161428425080832117801510172678370065054014697107867429126200144589955519203244501328991354218681988012175360946122398550111013895298193797401055920618542810406010293572225048237390091463458683842577800869092073711859202008308039283423033280071292809774981444200650896644785598818006187231675782687060056408046643748871400520306423541214025004592603818880045730041583100525954713000338455501050883587003843134043912576420031655030967089430500228835831814200935002442011073009499970025911056284224887300268493119427901594002,
  111876450552677840511827979263902783005029369547295508291049463866001012665160487199938372799092004710979261557429569045164432649071181730442417859350561047604334894286521699086042494088380791738310416861560012919174904093420824533869527039124650861607110520371629291720302291703620852986017299744035261221867311858580343201256021688355503338360985736927033032449259229706886440315139389175295281103057397347218614889029625439037639122550286645469289518536602768807408492343624026693778276395002960256807283143655842902464948571287647114023602095145834813000225418735777753149302147302553969151974020400145930321976290193276934549727920201825952166359116978017198539472135423360161465431239297207601510422478350953143014713288292142224990144690346497693471001329586830343606806012178730524989498290111032042579258713101056848400449744243010298061987576518170091483957780091075900869971873970163945008311573927058787990071306038068868228100651355175466815186006188693675718829940056450562071402883500520417963227702739004595205075332841440041588377481888286600338545295935714587003844321807237104380031655978250685210100228831459188878420002441685669558464920025904251729821253400268399422208190883002,
  120139519268619580511960329775150075205031453279367978828049496103379955145150487689879773211070704711710493600651642045175146556620904190442571912892294197604337067339683791780042524147867459309180417269162232223446404098836587893432173039131698897448125550371719090661189879903621972604838794960035274875790159870380343364041638203339803340257337883560204032470833129083916190315378938992796817103059991879360851972029652832281821663550286927216701801848102771628413242906141026721254288659746370257067400885215853902467340197059137030023623432592546716180225603285349454837002148848429452608846020412673530787862080193375042188535103601826693739752987436017203942758911801280161503328469578871101510677952587944919014729814263943467610144792745428248710201330193413208095344012182158424109683250111050479668467249801057789763298778178010302611523741337990091504702786652169700870861076930748945008315141752573245330071319373484666283900651816832943751116006190163792714665300056493260177029453200520529843353050818004597811049458772000041593657428175197400338635025006374538003845506897302313390031656920724151921300228827045089645120002441360536387208280025897462271172217900268305980979590578002,
  128998789470605550512102037012507016905033681294896335652049530526172493898590488212324881773630304712489178973004817045186540264965329410442735518967689274704339372009788481544042555984769747170490417700280842593969404010455704935594131038139133381256514630371813685066377461703623150417306645864035289219957222553830343534825204865623403342244171229161044032493405842186951590315629240747152348403062699204003079200029681377824136409880287220419866827575502774560162273258907026749770467062994620257337002612678798302469815688649168999023645488590538234660225793793640216050702150442077858425156020425570976363808980193475911055411593901827455165813807314017209483294378658690161542136557637670501510939219234286051014746692501292633870144897188585351566201330811288182168515012185645536720855950111069210606811785801058744877830591437010307221503030175500091525696120130201500871759762048441826008318742994421178630071332816629471932100652281630484105585006191642049255516030056536141179161477700520642063707069618004600421726163133060041598940329399927100338724687849624379003846689315402635030031657858402292830900228822589771537236002441035674336732810025890687860760359500268212794694629736002,
  138496259729488170512253746473793095005036063337871962705049567278794876478740488769374485152907604713318315997361934045198655744493808180442909253555893476404341816043124441369042589701139362086950418156232265954248304011059882843220552038146974837912207640371913322771352719603624389347826441221035304288071028321360343713985849396007403344325646231444221032517021878175384920315890758328596149503065524027956688741029711122121895137410287525524489254449802777606808319999150026779364353829846310257616417315393439602472377837754667326023668286053495599560225990442344187088602152084889280169523020438848514018620600193579613816677801301828236939460971559017215164310050115960161581875690504043601511206398671862952014763929839904065640145003712825341395901331440643346765477012189192767854076490111088239482858637001059713916549776231010311892600869692740091546940214974740800872668009243256168008322377888054507650071346368111910930100652749581362282263006193128467775384050056579205294322869500520754624075680294004603037090324598880041604226150227944700338814284055043238003847869062864159760031658791299883641600228818093488250287002440711084235982650025883928451249978400268119862311540963002,
  148676815239299260512416147082767432205038609793642965752049606514959183591940489363261547077787504714201087301709298045211537484778695930443093726375916738004344407628569303541042625404711768877600418638404348114427104011697942246188153038155244846949131320372018263991248565303625692462695400373035320115421172395810343901920011585636903346506107395043161032541727651790996740316163974828300172903068471246167752068029742113423434070730287842992825000871802780772652454055148026810074779103372570257905984804336969402475029523962674885023691848584191986150226193418363755746502153778291702098391020452516655619266330193686224915040427601829039567017157256017220989107356353170161622566463600384501511479613548665147014781533234547013580145112355594494765601332081669527372084012192801034462113810111107570433193585401060697053738566471010316625498662134270091568437523558253100873585898901481769008326046669922104020071360028542131552100653220698859155606006194623070656538600056622452737027458800520867524240929551004605657126795664360041609514855406070000338903813215019297003849046141044349640031659719431672348700228813556492145724002440386766901956150025877183995486381900268027182794221652002,
  159588421266048270512589974036071682705041331730027296864049648398255712584920489996359297353672304715140870831091066045225232641444534880443289582804875280804347155422113170697042663209212921258320419148260110298922004012371725145743115038163966094915524700372128781917669500603627062976739380672035336738956276859810344099042203456842903348790091089530317032567571561579825890316449393299122891903071545948902470307029774401833964226010288173304266191243902784062149111728228026841941902792844670258206056048336176102477773717355944411023716200493935330660226402913949121766102155523751960602652020466586184274768760193795820609598015101829863566448824612017226961059017934040161664229888181230201511758988816795481014799509760869555100145223154937199081401332734560327983480012196471265549059130111127207642870297101061694465470628595010321420883821808510091590190516253685000874513511876766505008329749577469569650071373798531797625900653694996261836852006196125880229106860056665883719777956500520980763981005347004608281820403080660041614806409762821400338993274924740478003850220551331752440031660642812379099800228808979034257606002440062723139816590025870454446495167200267934755112195655002,
  171282329227840640512776011831914142805044240940990551397049693102770843232010481067118980195191204616141251498477295045239791191345734360443497505901972504704350068572698416717042703234682012816240419687341691191562104013083170516070542038173162430242232070372245163343244979403628504260248665969035354197359086610360344305785801457395103351182333685652886032594604071185513870316747537545137162603074753429194131244029808039383723749030288516955945710915302787479911287159019026875007257704546420258516993520109789002480613481190889770023741366822528198910226619126841344608702157322776728187687020481068160819560360193908479016667681701830709467611302291017233083610444296640161706887398893219201512044651771035091014817866617246353710145336149504220340901333399512165403096012200204402301009160111147155345861654601062706329624915853010326279449811653730091612201681512010000875450929491191665008333486849138992560071387678694081529500654172486863440523006197636918770667740056709498453065015300521094343070252852004610911155948294870041620100778208771500339082668782185219003851392295145718230031661561456696058300228804361364299154002439738953743003470025863739757481498100267842578240575102002,
  183813296209276070512975097491782919605047349993043987257049740813742486164590481139043304195138304617206033510516962045255266096508307250443718218543861315404353156749444128649042745607811056767580411025727448883891403913834319241743250038182858920734669050372367709315148730503630019846225454453035372531124832269850344522603871980472603353687780022163019032622877793829142880317058952940973224203078099190560608436029843080098508462150288874463361990363402791030715891093406026909313793992048070258839171552399952802483551974649763934023767373358752153890226842260418943802902159176913520467547020495973930439068790194024280151447981001831577812498533230017239360281156776910161750560861456416301512336732087969414014836611126650473770145451378561065638401334076724303879952012204001398217818870111167417825513984801063732825899583873010331201896179882980091634473525939677900876398233536337363008337258724368672800071401669643657138500654653183962850336006199156208505847610056753297145366301300521208261279190228004613545118207882890041625397925736890100339171994388113194003852561373936116390031662475379287267600228799703730669306002439415459493340680025857039881829401900267750651160022698002,
  197239818762765650513188123987157896405050672274527487238049791728255335064320481215693653066582904618339253406100576045271713477315443020443952485677323881204356430170326978207042790462302142649000411085977151219538603914627319297972636038193081913809317640372496735818876480903631613437956503870035391782642996393450344749970031553125103356311592216084593032652447580094772410317384207282049117403081588955001742707029879580072659271610289246361024658562802794719509280966670026944905924963843420259172976704468088502486592455668982532023794246661389424350227072523848133470702161087751726668012020511315129440386480194143305970533542501832469155497561079017245794666236549620161795272580468755001512635361865682628014855750738549543830145568881996441478801334766398890087612012207863219245936530111187999415004214201064774135825969982010336188928596711710091657008574376025800877355506274341758008341065443592825610071415771996692737300655137100864485664006200683771605918050056797280003145690000521322518374524603004616183691933983920041630697817422881100339261251346055966003853727789183056020031663384594788518100228795006380459336002439092241161145870025850354773101047700267658972856714239002,
  211624381902029920513416043883912414505054222047951868571049846055978271058840481297372549992886104619545193847720376045289192795442090340444201116695510377004359899632393900190042837939243259255830411149663795255401803915464431185175222038203859099600930500372632574493629553103633288916924945310035411996282624713530344988379343087046203359059158829729119032683370609144030070317723891666796548103085228671286241380029917597544587481520289633203121723548002798551412967461216026981829574287220240259518808139236730102489738283845548596023822014080794879910227310132236773545502163056923664137245020527103692170877870194265640415296811501833384063647835501017252390437797857970161841045307335197401512940675664026923014875293030826485400145688700330808489701335468740988445654012211790843912317110111208904497799932201065830442782633114010341241258891164820091679809369970574000878322830438950802008344907248241256220071429986370843875200655624250878067467006202219630188396380056841447230852455200521437114119167956004618826861854728700041636000418425515900339350439262307753003854891542396606430031664289117807222000228790269559459309002438769299505337300025843684385036046500267567542322301485002,
  227033724248855250513659873217859776305058014505585192716049904019946402361940481384401368823929304620828398207792221045307767047070490570444464967944299899504363576543585733032042888187503616432260411216977598559108303916348033629896293038215219577072235210372775573380709835803635050351075859644035433218481329863280345238349249639668303361936104408273312032715706483487592890318078621412029085603089024523538056514029957192974921673430281003556420895895602610253172950284623025102013222462836310249877078011367046402492992923423592746023850703781031706750227555306792122771802165086105657379173020543351858087686870194391369456153130901834323116905419477017259151346486931840161887902248323420701513252810545474038014895245711725107380145810874725033694401336183958616788007012215785263459431080111230137508122412701066901932009458149010346359605087964900091702878474260305000879300289236561272008348784380739013100071444313385246194000656114647318385046006203763806316649060056885799030920593100521552048272253195004621474612674672500041641305693986962800339439557745916008003856052635116521040031665188962922281600228785493512164580002438446635273540070025837028671550736200267476358553875196002,
  243539120353294600513920695615707362405062065828478542171049965857390364002480481477121476528882804622193685994387607045327502966946643230444744945365683180404367472956254916188042941364149443360380411288118981525483703917280629564677879038227193923263702580372926097706391059003636902003450806617035455497838140811680345500420547188307203364948299402208542032749517327445803880318449037002636943003092982940132512163029998429127362267910281045403992219378102610666594855654462025105986296776960150241024821186656755202396359946363074304023880344762584354970227808274982479386502167177019142126361020560072178981092440194520581137724936401835286908412178050017266081223006969110161935867072747672101513571906116555660014915616621820774850145935446989140816901336912262782378257012219847481981359960111251702931412534501067988790621820139010351544691444495140091726218467246796900880287966347254014008352697084506008790071458753660508205100656608303505062151006205316321999496380056930335603768162000521667320589150143004624126929075218800041646613609433108500339528606408672168003857211068911960770031666084144683968600228780678481782295002438124249202192020025830387586737475300267385420553928668002,
  261216681270216880514199666676537464305066393249138185841049103182061565249630471575895442931747904623646169163237383045348471243867275360445042007285421445004371601602464493355042997634881288492000411363299097125826203918264852400034216038239814265827047550373084530700794316603638848341207128726035478885210357417900345775158397978354903368101870489511754032784867889435461690318835805076834506503097110602912799516029104137115233271140271088924771322488102611095975318353937025110107255624598190241063264905243854202399843035492754627023910966885662743190228069270702798044302169331431794986691020577277526354774830194653365624921732801836276044770034275017273183979669590000161984963921282587201513898104569900001014936413736016460290146062459591159785301337653867518276238012223978516560995430111273605304799678001069091207624812402010356797248487843200091749831947473332500881285945925820593008356645603956622590071473307818704025100657105232762323521006206877199190820650056975057147796686500521782930821481614004626783795715047240041651924130173874600339617584865102194003858366845381221090031666974677613799000228775824710237770002437802142016648220025823761084863940400267294727330321380002,
  280147674541494190514498018629838758505071015118063134823049110217793492829360471681108321576438604625191269365399346045370746748217883950445357167352606475904375975931160002837042105717449389565600401442740387248544403919303472602293581038253114358992420210373251274454360347703640894045038496756035503433814575759030346063153386065720103371403211312924867032821825648224589710319239619448227026703010141445673779298028108608667351887890271134182761009178002611541902629137943025114381345654432690241103084314116331202310344598774959117022942600894111943980228338534444372754802171551158689203846020594981098966071130194789815249952400601837291146320375595017280463611973158870162035217414408738901514231550726871778014957645165564406040146191955666076122001338408989920057059012228179397408341470111295849217573551901070209373927535702010362118013051921100091773721532101895000882294312602780756008360630184499271980071487976483366071900657605448418761468006208446459789176370057019963859390649700521898878717139557004629445197230535030041657237221703531800339706492732457209003859519966151460130031667860576204419400228770932438180966002437480314431284360025817149120372425800267204277896243059002,
  300418864803509400514817065287070564105075950974379871385049117721465638575630471793169005781483404626834736182651289045394408772215041620445691497639136942804380610147310386736042112016735978273850401526677166919718603920399404591689974038267129663125836120373426750813578860803643044019013841819035529199332056478920346365022616735536003374858993648296957032860460923302003220319661202166006178303010590171937249671028113264587739113920271181244300247554602612004985731170867025118813990390915270241144326236436536702310717271750675619022975278439941904570228616313468677731802173838063477082470020613196430529353340194930024560286725201838332847428696241017287924200208379620162086652660991665601514572392080822469014979319160113676630146323979024881083001339177850182885299012232451167999923930111318439311658976201071343482357448974010367507728314658670091797889856990073000883313151485391415008364651072535959190071502760279477716300658108963807102334006210024125637402510057065055932917005300522015164020301156004632111118236179290041662552849601004400339795329630704160003860670432878428080031668741854919485500228766001904992830002437158767149599250025810551647879143300267114071270177961002,
  322122876314248230515158207304755959905081221620819537724049125723413146653040471912511664169325704628582666405478441045419541283540462680446046131907535442704385519253118824857042118680793770364190401615356237752470703921555713975740152038281897428040271700373611402317705742003645303400852522047035556240018615226540346681410861543565703378476179020530810032900846989513704130311010130461462876802911057989173280187028118112160580649890271230178145300631802612485854908241144025123410795880100210241187039006045923602311102725999253925022100903210849211190218902861985459998002176194059599642261020631937397585752200195074090367583474601839401796774564029017295569911091580910162139295266996251901514920778840958718014100144410978387320136458574163723536001339960671638947258012236794885219317780111341380282093642901072493727674783102010372967143835276310091822339576767901400884342548158648667008368708515461795460071517659833465895400658615792263973412006211610218522237420057110333560724800600522131786471445001004634781543325016440041667870979530170800339884095182516335003861818247246197260031669618528193550800228761033348791671002436837500864317090025803968622173517900267024106475869455002,
  345358578773190840515522937778171516205086849203297122204049134255886537777700472039597260191678404630441524411474349045446233193090272460446422269055958887904390719091409379904042125730130723080780401709037532036676203922775625133618803038297456780230968710373805693178271777103647677572654297267035584616819221250440347012991750792354803382262030784272769032943060196123374490311056070865437732102911545676849660028028123158945179111440271281055553528586702612985162494662908025128177556505388480241231272513482960002311501377480243569022104389544424636790219198441335179131102178621111524070398020651218227542447750195222111797602305401840498657646997789017303404999426100040162193171344338202701515276863976835521014102402854726525700136595786273164216801340757680795242436012241211619498790060111364676877508816101073660306587014430010378497015591625550091847073364914576600885382588686279136008372802761664494080071532675773193686000659125947129669747006213204760173937420057155796933144835300522248745807367429004637456457069040060041673191577240164400339972789013263989003862963410966897070031670490610431953400228756027006439488002436516516257487720025797399998217495800266934382542284898002,
  370231497890971980515912848185836897705092857295367264896049143353169407293120472174915160422304604632418163705085851045474578637600844170446821176749706469004396226391300592700042133186373075519480401807994788946565503924062529167956535038313848814212981760374010110303263311603650172172103449340035614393487497633590347360469015323959803386224126687121165032987180090459882640311104022780424999002912054044909370171028128412785860671450271333950369945693102613503583607508663025133120260977984920241277078253318327402311913654950679134022107990297731326620219503320175892123902181121236009559752020671053506884868970195374190341117485201841624108245346973017311433809792198130162248307519874558601515640803263482373014104708114994558520136735661247533556901341569107371738331012245702454962072330111388333900613043801074843417763402396010384098106017612730091872093913835119500886433359611725576008376934060523844810071547808727952835900659639441747921013006214807772265895400057201446238489364400522366041761198610004640135844019617550041678514608565661900340061410751004905003864105925780448390031671358116010708200228750983113548293002436195814000586990025790845731144847500266844898503580816002,
  396854252254327500516329634706206400205099270987847200768049153051703155908740472318984836650902304634519849682895568045504677277952220370447244195249000330104310205881628262976041141072324426246670401912516264412097103925419992241221640038331116688146721680374225164367933955903652793104167166465035645636710324161820347724577779581108103390370371933762899032103328954632028160301154070846867386302912583934908738608028133881822220745970271388939116617342202614041816901833639025138245098506985420241324509372842549702312340000335641282022111709025058819320219817774674682519602183696503402123406020691458189565140530195530429905851160701842778841985762198017319660778265920790162304730944535002101516012755327169132014107061074206389130136878245694393576001342395184339889067012250268489568256250111412356208678808701076043261849585820010389771184040683110091897403934936890100887494947959121661008381102662411153990071563059328456247300660156289465658496006216419276414263660057247281663051866700522483674062418900004642819688707900480041683840039427167700340149960026474880003865245793454296790031672221059276399500228745901904486358002435875394754615190025784305776260486400266755653399068277002,
  425347018125834910516775104929235155605010611698391419426048163390219161354700472472357667089164604636754283692080980045536634613991999140447692741443311272804310823501482034983041149412027830944850402022905476272092903926851764314622575038349305723945390690374451390934289572903655546553309136074035678416237751807400348106085907963913203394709012770133227032108147489730280740301206303120958786002913136221196085172028139574499719722650271446101084985236802614600585349572084025143558465154153660241373620722142226302312780869108862631022115549384761315100211014208870373593302086349038958995001020712447605570228810195690936869444795901843963567813350665017328090434167349620162362469302595955101516392881691819846014109462629689152290137023586944105075601343236147961521952012254910835256831140111436748714032199201077260041482242675010395517025119385670091923006158706042400888567441234259720008385308818688667120071578428206830439800660676503632782503006218039294177579400057293303391106926600522601642436875194004645507975645240840041689167835831297500340238436473078358003866383015783154730031673079454546077100228740783612384472002435555259170196040025777780089039755200266666646273178629002,
  455838023917258870517251184986833511805011342370000254850048174409878822159720472635618842291074304639129628453297417045570562316766314750448168313103019967304311477467361065398041158230831069254980402139481986401643903928361788308268013038368463512066561260374689351621373954903658438996240132861035712805018445886450348505795406584193603399248650607370646032113182607525032690301260811206549113602913711812132222529028145499580640048460271505518431211281202615180637042803302025149066970378567140241424468905601826302313236730683631027022119515142115092990211047655404116526302089081024203229769020734037469673258030195855820133487147701845179010520108328017336727401838674610162421550821099302801516781346826081612014111913693894068570137171733059500792301344092237828093219012259630618093856280111461516384545551201078493961303810049010401336411281004190091948903334783855000889650927425549405008389552781708961300071593915996607955700661200097601929572006219667847056391040057339511604910103100522719946606797214004648200689323597800041694497963871056200340326839726878907003867517594588737910031673933316107154000228735628469142217002435235407887673560025771268625127761600266577876175429512002,
  488464076180688100517759927127643832705012122137284404354048186154421929054240472809389381697055704641654534923042497045606578579090690550448672493359750686504312169857362880109041167555455237125500402262582221584911603929954209702166149038388640021198993790374939635328572433803661477215228278306035748879340883535740348924543882599914203310399825670606867031118443675399108910301317690391910771002914311651354225228028151666155416351410271567276274633355102615782746022105388025154777443776454420241477112334868948302313708068814249508022123610172249060090211082147057669156702091894698309135381020756243890371540250196025191178617761801846425911068724238017345576402452531670162482004279417684701517178318191056509014114415194620078400137322732845665469901344963696900315903012264428978419280500111486664244133095201079745227977265581010407230131159259720091975098232042968200890745495004967602008393834804814311840071609523332719734800661727084728239983006221304956492888810057385906484697880500522838586290813926004650897814215947700041699830389726106300340415169426589780003868649531719508340031674782658217306000228730436705434115002434915841537207720025764771340338675800266489342160391027002,
  523371119073064810518303517763074236305012954217301544562048198670323845049050472994328267034686404644338170674555537045644808485441875260449206955427285534904312902864910496133041177414066828399390402392560334985973403931633386598516484038409887713064879600375202859514243080703664668311992561093035786718980539881630349363206063393558703310896718744205903031123940449857003580301377039791537206802914936719083922566028158083654350618650271631462799428893902616407713130734010025160696942021684460241531611283321914702314195382008318107022127838463150163010211117714652228848402094792359519174193020779083379014935200196199164120725173601847705026922352890017354642255851058410162543859018968315101517583966288704192014116968075240283730137476635859823746201345850771548162224012269307070995411590111512197373249605801081014050200969590010413198980032080900092001593638663496000891851232928999943008398155142336037150071625250851487443400662257478369125254006222950643870535930057432488208687701300522957561203969872004653599334776687640041705165079663030500340503425213564304003869778829050414470031675627495104376300228725208550715815002434596560738871530025758288190655056600266401043287652312002,
  560714829367777060518884286013111276205013842032537764613048212006962002230320473191134699149440004647190249880515197045685384402202618200449773467575567539904313678804957920416041187836353477159240402529789110155942003933403900266665263038432261662567255290375479671532082216903668019722204164898035826407353306486000349822695377943854803311416520017573558031129683092017071900301438962493149797702915588033482618341028164761859724827400271698169359584967502617056366895384310025166832756012510170241588027942079498402314699183950108700022132204118745432730211154389862790045902097776366592988684020802572859128207200196377855768259329901849017132380452048017363929882416118990162607144953077310001517998464710923124014119573294931224970137633492421336784201346753711591242613012274266065156540170111538120909392058001082300638723568397010419243759859441590092028392362209040500892968230639573710008402514049593812390071641099190615775900662791291884036190006224604930513704890057479256953078041800523076871057741677004656305235442042750041710502000035603300340591606731786543003870905488482638830031676467840966277800228719944233230228002434277566102743910025751819132227160800266312978621788296002,
  600661249211874800519504712782110727805014789223681304698048226216792251726230473400550485197209204650221064985217310045728446389344625530441037389837092892104214500120519034290041198853603540474580402674660909603530303935270566193043700038455819683522217840375770750027730887103671539230621134469035868031675395046810341030396560282764703211960246974771364031135682183693470340301503565710095040802916266652053587285028171710918323789860271767490587276344402617729564434313958025173192418230312190241646426477593539902315220003935310341022136711362062466820211192205240234692902010084914028921500019826729675931103920196561385680677975901850363018920784675017373444304971162370162671892576996495001518421990189318350014122231828905022860137793353621808517101347672770339564525012279307144959725960111564440047604301501083605206358958490010425365279321269830092055497229702593900894096578064981737008406911782894963940071657068989184712500663328538634230735006226267837687313190057526212892048537000523196515560054487004659015500630466000041715841117285037900340679713627861701003872029511943341050031677303709970902000228714643980013704002433958858229005410025745364121372267100266225147232326767002,
  643387458959774130511016744039653983504915799663169112377048241355535633294620473623362563508040004653441520158568805045774142634691020870441101022219634100804215369389536164942041210498789709712060402827588670049513503937238445659405723038480622460225916490376076806398233753203675234986882942725035911683129989210640341080801257538026403212528960562444463031141948744089254850301570960939320135802916973673093947844028178941354381367790271839524504756026302618428192393627656025179783710316240140241706873090866252602315758387317428860022141364538470196120211231194233952713102010401316488076134019851571606059956230196749876228047085901851743495547684793017383190650715171830162738132978074683201518854722645663430014124944668644411730137956271335302339001348608204634672291012284431509336745430111591160040984746701084927968001310700010431564353855415800092082911087702308800895236365620797813008411348599533733920071673160887641734800663869231982542144006227939386596464190057573356197760179800523316494415298464004661730114743039200041721182397940242100340767745551006625003873150901385407950031678135116256030200228709308016902055002433640437708029400025738923114573997500266137548193715631002,
  689082292554275610511087528283851863104916877469551668625048257482376162569460473860405673827806604656863166629119805045822629911958379380441168452506617292804216289332105438335041222806656847455950402989006946582723003939312857873715309038506733685117042990376398586317070427003679115521992587284035957457040917524590341133587597663720103213123766971825387031148494247122783660301641264125121236102917710237197561370028186464082963608570271914372639865705802619153167912544571025186614670871801760241769436078334989802316314895966131280022146168119001821880211271391215004231302010727098970424100019877116867494652720196943452651815801401853159389146688921017393174153189185700162805897846085506201519296845243065116014127712822140694590138122298228669288601349560274891171490012289640372247212880111618286201197080301086269140640155270010437841805695688800092110636802377156100896387684210782754008415824757790517450071689375527794006500664413385293147117006229619598386087840057620687040355539200523436807324345196004664449062163870740041726525808618062900340855702153040213003874269658787199530031678962073929238900228703936568536662002433322305120475560025732496068481641300266050180585290524002,
  737947098073941360511163123661099056504918027022724133189048274660170267341220474112565181063128404660498239998500455045874074063840238380441239901075067205204217262818076840038041235813814256402790403159373008036824803941499392679117321038534220202806767370376736871327592433403683189765514956652035100545305363116140331188864118677793403213745819490715095031155330639410337930301714595828865126602918477528810660372028194290423802766140271992140145276754102619905439618493594025193693603489608420241834185894468386502316890108737832438022151126703761852760211312831499835513702011062523074426416019903384129694940720197142243126786677901854611544845636993017403400154275867430162875219483713841101519748544437838645014130537314134649650138291487771988590801350529245138640217012294934962832876610111645823898984015001087628943375527438010444198463909960520092138677259582468500897550625227782327008420340516931082100071705713552800523900664961011931334762006231308494140586860057668205587959123300523557453984564386004667172327260492850041731871316023530300340943583088373994003875385786152302680031679784597067820300228698529858370500002433004461037380310025726082939909481200265963043491242573002,
  790196546222553640511243849227244463604919252980074596197048292955668539308010474380780061094596004664359699645021525045928650511458636760441315600722613701004218292875047778102041249558832596282210403339167986012798203943803923867545819038563152160759654990377092480507815798103687467063521348456035105577532378090000331246744121589290503214396320428065608031162470358928648240301791081404891542802919276777841960925028202432115596579770272072935921575379302620685988652902677025201029085020639580241901195216118701002317484621958827005022156245025419203010211355551374560696502011407857225330126019930392523950004930197346378824302089601856100826382345124017413874106232600000162946130817202873001520210010032101711014133419186360415510138463894249121451401351515383063928927012300316525573093080111673778564684063701089007597433172952010450635164438329260092167035364935349800898725280554615894008424896137205755810071722175607164222900665512125263274976006233006094883483450057715912006677700700523678434089840331004669899894384255730041737218886950096100341031388014002553003876499285509282390031680602699718696000228693088108674211002432686906020248380025719683685836117500265876136000586560002,
  846059489702426430511330044668132679004920560293603118055048312439750504787340474666046057687459304668461270329887377045986544791578440080441395797346755266804219382696769855616041264082345675061460403528898080083173703946232623125705863038593603166921328960377466272209642317103691957197311228641035110853271369935370331307345871300102403215076523113884265031169926354381847800301870851182810379402920109261329071415028210901330787631720272156872744309023602621495829728574040025208629974084559950241970539008676435002318099049921278500022161527952788368520211399588119821798602011763376840784858019958161653945423680197555993976668375901857628116478958243017424601573758602820163018665407163951401520681435227095650014136359497792385880138639572768379032601352518960053852289012305786320441490960111702155688751369101090405326179814077010457152750131344980092195714043889956600899911742564956330008429491879848589960071738762336724048600666066738655787634006234712421577068230057763806460600730200523799747330588490004672631747870719490041742568488279862600341119116589493944003877610158911435420031681416395898332700228687611540541974002432369640621140870025713298263403808500265789457207129129002,
  905779876588777320511422071599261423804921954228068287868048333187673156830880474969419020015978804672817486125426662045104795312305043620431480750660128925304220535651989510978041279427157351276050403729095821829050503948791974642380955038625650454601192230377859145875708514103696670402943548893035116383899710605610331370792805635208603215787733977274753031177712105298191640301954040656414843602920976305163064591028219710690838031560272244067395114237502622336012219559151025216505419829781840242042294594074290202318734025392382469022166980494500726780211444980036239588102012129364500163550019986711606551589880197771225942839190001859194317223086901017435588236096555280163092857459551264801521163016677241695014139359324895141620138818579273305479101353540251238274181012311345623063816730111730960822278548401091822355138474383010463752070788298180092224716241812644500810111010412420003007434128007076497190071755474388646987900666624865476111467006236427495122052790057811889111800818700523921393393772062004675367872040043980041747920086983811000341206768476980153003878718408436543820031682225699592664400228682100373897602002432052665382766170025706926629917789800265703006209437406002,
  969617721008227730511520314945149979504923440380221254053048355279334032317320475292018430831738104677443736791030050045111308300402430540431570734943634493304221755293744184823041295638353795476410403940321400482129703951488790407303443038659375054931772510378272043937194496803610161739161124252034122181307236541890331437213752816272103216531314705532562031185841642882772700302040790679439144802921879285873141397028228873282015157030272334640797049926002623207621284475050025224664870950157590242116541720688828802319390200137030101022172607802768066430211491766470468304602012506110117663497019101606296283785080187992215275380464501860800350455841310017446839889169248210163168741836803632601521654954544941585014142419761876454200139000970553577174701354579535533590329012316995724876987260111760199577522629701093258912003865063010470433983195568470092254044924056999900810232045859032978007438804782088368320071772312411420077500667186519091673844006238151336357225180057860160120334295700524043371962918734004678108251197379810041753273650122029200341294343341147597003879824036186637080031683030624757014800228676554827500408002431735980838566100025700568742845618700265616782110807861002,
  103785013462081450501625184403174005104925024699190573293048378799549660831680475635031135845096704682356316729058669045118215384155096860431666039839352508804223045369136712564041312763421370334550404163164053069057303954330226233144497038694861977239833660378705953796060698403610680937089383812034128257918464000120331506743157704850903217308684487313543031194329571653334140302131247668396452802922819632473371896028238402671704619350272428718154263108502624111779024225325025233118084965331270242193362635189168402320068245454303809022178415177240478260211539987841867289502012893911119263981019104623680931657970188219105788738927901862447158166868179017458362447751746780163246354069155413201522157452556129998014145541920943384710139186804256018814601355637095686609011012322737933289333150111789877628434008801094715226657829560010477199351165033850092283703076038717500810354289981476658007443522469064157080071789277054842362100667751712869860134006239883966059105560057908619644241758400524165682718137185004680852869633251710041758629144843925300341381840849227507003880927044287744580031683831185316021800228670975118951104002431419587512804900025694224559816505500265530784019235302002,
  111077242261289580501737115996898178704926713508084811913048403838350257810560475999715285458189404687572476659925166045125539761527653680431766971185291510104224409829611738189041330852370401133630404398243522087458003957323798533576298038732200397678749780379161909895324316203611225806692453232034134626715729485870331579521317153741503218121322343003762031203191091887221800302225563812740830702923798828373563564028248312925267128480272526429096118182402625049645675118397025241875137771987850242272842156383380302320768852728145443022184408068960800270211589685669803016502013293072623619190019107725474942155150188452044628837177501864135702896505196017470161947679594320163325730366118823701522670718056587968014148726932561512840139376138895737483601356713218318833257012328573571842050470111820000711188475101096191531184847892010484049045572535440092313693703310337500810477752214321375007448281333163944720071806368970016825500668320460177783779006241625404941607300057957267839548738500524288325336133809004683601711623946230041763986538388442900341469260670986387003882027434889659690031684627395163561900228665361464697715002431103485920654660025687894038620654200265445011047382165002,
  118869924812805420501856573724229114504928513526883611021048430491291582434040476387404500584926204693110478162814628045133305957701650510431873851894100806304225852841759085264041349957865121000210404646211583879482703960477401891796631038771483856486398990379640995881134662803611797574750949598034141301263292219780331655694624817297403218970769545528139031212442022908463430302323897292604673002924818413356369692028258618623456422590272627907825924283902626022420838400360025250946433473405110242355067751114446302321492733992544870022190592084417847400211640902601595169602013703907626966305019110913891522503000188691182344018256401865866968145164951017482244548093570100163406907628139836401523194962069025802014151975945717324740139569033867375568001357808193971147153012334503980371862940111850574624722307401097688059887601005010490983944396404560092344019831635855400810602442041649117007453081640526975930071823588809342282200668892774382056180006243375673655698030058006104860266383600524411299490229401004686354761431890760041769345798084274100341556602478716436003883125210165700000031685419268162680800228659714080041476002430787676568281650025681577137208603700265359462312548175002,
  127196586929571430501984051306018869904930431896691917512048458859784931412370476799512274922939504698989651236164562045141539898808979650431987022877990564904227378798670220133041370135360088522210404907753651012355203963799327455417890038812810464248340600371014434686056147003512397524623868915034148295732436979290331735415825784595203219858632134951306031222098827244956990302426412504371429702925879985622817508028269334880415935950272733293274399195602627031344747248776025260342714494916640242440129612258877302322240622511604900022196972989700709110211693682441120755202014126737192129892019114191197939805310188936672957363221001867641958790064303017494616533721532550163489923458429911901523730399350944174014155290128183790850139765549456483556201358922317148908359012340530515174898830111881605231270429501099205049302593257010498004932756039880092374684507065176700810728368997136050007457923658270674350071840937226505245600669468668848557422006245134792789065000058055130858392221800524534604850375859004689112003306039010041774706891350059100341643865947226036003884220372312471280031686206818145522000228654033179142599002430472159952930980025675273813690571300265274136936639984002,
  136092945326291790502120074041073954304932476205436284906048489051446293063900477237536626703070904610523045504004020044150268989638737810432106844022211299704228992331875191081041391443243389183880405183590452123899003967298282195183972038856283117562012070371067315175916926503513026998762900156034155624927617105200331818844281412491003220786583530340274031232178635686747990302533280294351732802926985203908501647028280477362272400000272842729258012126902628077699572299706025270075071993068260242528120738882317402323013273374845720022203556714756439510211748070178090435102014561890641705257019117559716741848050189188674040405363001869461701509413988017507284317197872040163574816174975804701524277248453282097014158670666789163970139965746851013532801360055886367449470012346654549171786460111913098456907638601010074273821583508009505112902950549340092405690796008431200810855542664134159007462807654489626560071858414876471742100670048156942206620006246902782865782050058104345983910965100524658241083172857004691873421482244260041780069785694590800341731050753830087003885312923549629910031686990058913259000228648318975026066002430156936563011110025668984026335794500265189034046141237002,
  145597047189484110502265200773868129604934654515086586764048521180465742289600477703065013638508704611185454199098633044159522195525029250432233695209560836104230698323888739583041413942986946562990405474479792847445403970983409066620694038902009724514488610371122865578261824203513687401334215726034163304313678994990331906146244749652803221756367242483656031242699273277446500302644678200839885702928135789672760616028292062306345122350272956364642351720602629162810766811141025280154956566468350242619137018607857502323811464108121438022210349357753521470211804112018011622602015009705755505124019121021827003143510189447346788265293301871327245214187897017520254441421121400163661624822729737601524835731779860788014162118767689029130131016968815293450701261209204197990877012352877472073977480111945060292092921901010230136767858349009512308754497438100092437041785310137900810983972675751944007467733898254546400071876022415479113800670631252026733073006248679664345979480058153750384795365000524782207851884613004694639000183640690041785434448717009800341818156578340504003886402866119652240031687769004236031700228642571679587520002429842006878177060025662707733571884000265104152772082868002,
  155749418408444910502420025981619377704936975390491160980048555367998216146390478197779525526864304611888482538878595044169330128633666620432367977398507973504232501921395647618041437699304284294880405781218401592500803974864308115423108038950103440403678420371181216298670443203514380200952148461034171350044210960310331997495146956760803222769799691186016031253679286271899780302760790704836526802929333529363223607028304106540990228650273074353510669804102630288048452594291025290594189276519570242713277312254009502324635995300528346022217357189553528430211861855412853108402015470528972355332019124579965596686030189712856096231323801873239661487590441017533533581950259260163750389185982225601525406075647632118014165635656641635470131037743638997030001262382577313966838012359200690551293440111977496792216831501010388118102314156009519593394171354070092468740582323192800811113668714934078007472702659611212090071893760501027773500671217967464447457006250465457625516580058203344207007128300524906504816456682004697408723621016680041790800848106996000341905183103056638003887490202287599850031688543667852881000228636791503598925002429527371369413520025656444893984166600265019492250013522002,
  166593220990234340502585181987773971404939447929918334998048591742576871997560478723462369728174804612634555076386254044179725138876726120432510113757649075504234408549106818667041462780316095613030406104643864127199303978951058569159575038100068291415094270361242503896043143903515106933529338781034179778991060955890332093071895142985703223828773130988183031265137970094363330302881809489732566302930580276758190182028316627506099735980273196855337755548902631454828847874553025301404972986436630242810643540800731502325487691247694273022224586658293465200211921349092426296802015944715596326800019128236628491898410189985370637810030201875200045032343863017547128549440266150163841149800919890401525988510347740844014169222579286543390131058905552746123101263576316537768679012365625628400714990112010414078151965501010548242387871708009526967736042887220092500790314982749900811244640514540391007477714209579375810071911629791872922300671808316616013132006252260183035654970058253127594497876700525031131633532574004700182575993185150041796168951644955400341992130012755658003888574934340889690031689314063471684600228630978656714306002429213030499116730025650195466315044400264935051619970291002,
  178174420212520030502761341309344568904942081797402484211048630440550295814440479282001665551260304613426237114383528044190741409695453300432660550859347004104236423924319090458041489257723993759020406445636651085583603983254241959723043038105387254587198470361306871362689338903515869205248116196034188608775069378530332193065182054171803224935258689299326031277095398332565680303007933710259070802931877955389381164028329643274275902660273324035169299173102632664615738275638025312599904027162180242911340774743269202326367400611846293022232044394081319380211982643096498454902016432630007492837019131994372079256310181026506294427222801777209514125918022017561046292117487650163933947968370646001526583270207409695014172880801426616470131080461048035032701264790736887906169012372153726716403160112043818336806521701010710534418733827009534432701517418640092533194131879900400811376897857423610007482768820151655250071929630948016259400672402312840218239006254063860842737940058303100689210189100525156087956470694004702960541487358940041801538727202204200342078996994683012003889657064589065120031690080204769102100228625133347475493002428898984721175420025643959409463344300264850830026449618002,
  190541962100580040502949219145975280604944887256998254452048671606544897175050479875397564431000304614266242644798533044202415058964090810432819759935540876704238554072213341323041517206992833747240406805122242706669503987784966322880459038110980275609237000361374468416694142603516668695658064585034197857798064864720332297671808063888303226091309521064648031289572452804242140303139370271017448102933228561047676424028343172572701903230273456063806908629302633918921992151014025324191984199010390243015477325894966102327275997099063331022239737213807403190212045788807653623902016934645877302011019135855814522086700181055210948572005901779269211083827509017575293898295371980164028825766738583601527190593652656480014176611609313392420131102416712529528101266026157626590804012378786444060969760112077715821680963301010875019221982938009541989219374022740092565955202335216800811510450576506430007487866764292392970071947764630697627800672999969493747725006255876511247869180058353263631078657200525281373435361037004705742604279517030041806910142741147600342165783738542855003890736595363567090031690842105390510900228619255783317799002428585234481051800025637736682483669700264766826618378515002,
  203747961849114940503149576019056954304947875209052361855048715393953900248400471050576871367437104515157442722917259044214784245279903020432988238198861291204240805341927095633041546707542013977510407184073355305071203992554891523281984038116861026711447100361445451807080850203517507160904915724034207545276172841540332407097015935045803227299064084238671031302590854733954230303276334114914533502934634164374536948028357234805730492870273593117998947363002635219311121519900025336194633118087750243123164841701624802328214380154128706022247672126074123740212110838984917135302017451146388658807019139823637136040970181084669075370084001781380302731120811017589878598931145030164125826065130951801527810723271852038014180416309935861850131124779231290676201267282902307742020012385525256637992020112112112853427751901011041722059184210009549638225804414650092599076716472112400811645308554857433007493008315936494100071966031502386649800673601299930955545006257698154386594710058403616558031004900525406987717042012004708528748534770780041812283166315453000342252489936488455003891813529017508950031691599778949955500228613346170575600002428271780215861220025631527244585771800264683040549085885002,
  217847903845782520503363220569690688404951057228608472422048761965454416502900471117535908249282404516102874299404223044227889279917946890433166510232338206204243184423439544798041577842946184936270407583512274173213703997576255755377224038123043839706378420361519985632307572903518386437096115201034217691274488442270332521554838836601103228560749540481246031316173197079263810303419048521837494302936096913541890271028371850078212965360273735380637365965802636567398889898661025348621700916772280243234518402131606802329183475673407839022255856336246876410212177847798160096002017982524460805800019143900585796758770181114899134539458201783543980882191232017604807770224014570164224992536679706101528443905880129052014184296231312690490131147555388011454301268561298825420710012392371658465785380112147015820414205701011210668427994732009557380664451952020092632561885290065600811781481725766191007498193749988239090071984432226774319600674206317503637743006259528810328588590058454159605989270300525532930445117233004711318958407731820041817657766070221700342339115283112619003892887867925451150031692353239030087300228607404714488093002427958622354451470025625331055133895400264599470976274193002,
  232900853991736350503591012524799230204954445606067089787048811493554165486430471188654517002837404517105749534424928044241772744743108240433355129451148952604245698365308696651041610701145811891600408004513297824960103910286190327286628037129543736716466650361598241672658169003519308443808614490034228316743167357410332641268462117622203229878685285649040031330342978046655560303567745417914346802937619037023344975028387039219591366520273883040960705308602637964854968352417025361487481307767210243349656619207249102330184236736185212022264297251628808530212246870863300385002018529182979102905019148089472376239440181145920004940151401785761462829038045017620088936255477630164326369672060048101529090392584650633014188252722787915620131170752066266204201269861679462690943012399327161552431330112182431179288456801011381884063778213009565217486450683240092666413940737640100811918980072817412007503423342320072350072002967468764574600674815035560805249006261368499077340130058504892908871048300525659201259972366004714113218042871900041823033910242152400342425659475438119003893959614483177260031693102499182117000228601431619204743002427645761317480350025619148073646154000264516117061991202002,
  248969685054932120503833865841214373004958053390229137591048864161169494671010471264184361611804304518169465619386350044256479616386497240433554679640020831604248354593302235391041645374668058866840408448205298707589803910842531340157070037136376462281834050361680399737110033503520275187744657227034239443554990177970332766470599358813603231255286614811922031345124635838922380303722665695716686702939202846459685803028402823808777569530274036294763453609902639413404641125572025374806725021465250243468701739244735802331217644354903775022273002486762254180212317965278317083802019091535029800437019152393176208449450181177750993315692201788033991838108236017635729771672326070164430002793208377901529750438850748018014192287155330148100131194376250773037101271184380940913126012406393296072068840112218365455548493801011555394941225570009573149650464436400092700636135785356600812057813629964026007508697369771364720072021637894465822700675427467448457480006263217240569843390058555816598590757800525785799798791980004716911511574886380041828411567159707500342512122212908154003895028771107473680031693847572925757900228595427087791000002427333197517494600025612978259793884700264432977972602112002,
  266121315834813450504092752038127350704961894433859065183048920162236438706000471344391923663561004519297615133123319044272057397008662370433765776570078667104251160929965639283041681960858482671470408915774405737816603911428063089297993037143558516908000400361766648025284927403521288766541553853034251094544457897510332897403883240765603232693068526690416031360543584677151400303884059545772964702940850739621692612028419226199843548530274195344611945147802640914830562248411025388594653626634630243591779747871261902332284708244761385022281979868859713360212391189660095644402019670004139905484019156814645584707610181210411843200104801790362837655854717017651738104412954620164535938067242290201530424304568937636014196400921835317400131218435028669313601272529744469471677012413571610542456730112254825244114352801011731227275981294009581178122725967080092735231744498400500812197992481599493007514016110147151290072040444171182454500676043626509356015006265075054676290550058606930805060975200525912725695576358004719713823129053170041833790705243267300342598503197376764003896095340235907030031694588473749183300228589391322233780002427020931359006340025606821573401023900264350052878761735002,
  284426964962184030504368703728877685904965983441910809111048979702356652148440471429559350639574504520493996960728551044288556251988095960433989069699110635704254125615173147063041720562124047972620409408466814253513203912044269767817364037151107192115652090361857183505113184003522351372741669137034263293548478363860333034321271787221003234194649672577097031376626252141845660304052186799771956802942565203473418006028436269548547846790274360400066993238802642470974564549492025402866973744643020243719020477889696502333386467613126248022291237443367280390212466604182121252102020265024522241182019161356899279384980181243922743993156101792749297023140726017668121918477558650164644222520584916601531112254122825988014200595437432985110131242935590800242701273898115795937670012420863672003802030112291817209903377401011909407526275231009589303877076133190092770204062109110600812339526762628919007519379842216844980072059386967406303000676663526082798470006266941961199765130058658235656193788600526039978581158266004722520136821587300041839171293005282100342684802133099208003897159324326607210031695325215108971600228583324523446980002426708963238569200025600677974443470100264267340955387012002,
  303962420205906490504662818363678085704970336022567874192048104299948014872710461519985351381386004521762627804668762044306029154890392130434225243959418528604257257327709312148041761286187997820710409927591729221497703912692708608439423037159040607057212720361952212306867132203523465297929090997034276065448705747730333177486470562153503235762756454983978031393400117879245030304227317285848734702944348817339156179028453977839724018210274531677913455898002644083739522547131025417639891667748840243850557720063004102334523991969247624022300783479663527870212544270613038478502020877041325802703019166023028106487170181278304340206770901795194694198633448017684889356742868750164754904053296458101531814556457913522014204872139796269850131267885233020774001275289845256672309012428271066198874050112329348088408641701012089962394560494009597527895003134120092805556405089338200812482426658539497007524788845712927430072078466952808102500677287179504393368006268817979875941810058709731277902292000526167558083220027004725330436759999090041844553299050427300342771018726722463003898220725858049280031696057810430066900228577226891277025002426397293544854140025594547423048461300264184841381629679002,
  324808324208475590504976262195527669904974968741257123524048111028462688388750461615986141278011404523107754319337014044324532040090987340434475021637618780304260565207931113036041804246357138213620401047452444779773103813375013357918633037167377746767614000362051950134245525503524632937039695034034289436215597354210333327174371419763203237400227281433166031410893753720371190304409731196357176302946204256177429491028472375915557502170274709402396937385002645755091270724657025432930128392181340243986529336891861102335698381954743262022310626476896865990212624252356095292602021506510891512701019170816196507669110181313577740885420101797700381491318894017702048723822000000164868031453615168201532531485151305792014209232489455407870131293291357510815501276705287827870316012435795397754393520112367424686280452101012272918829156647009605851165681773560092841292111222600800812626702405469698007530243401329611140072097684798228892000677914600105834704006270703130372784850058761417794102001000526295463826310169004728144707043447130041849936692075743400342857152687275687003899279547328835600031696786273105730200228571098624508327002426085922658724710025588429879493940500264102553340849161002,
  347050477625899520505310274482258329304979899177804671325048118180264932697010461717896439854061104524533865901782986044344123963442971050434739164350971939204264058881562937648041849561802120827800401105070958760693503814092897910981440037176138502119477550362156622693218328303525856792851582284034303432954254548330333483671508428381003239110016979000913031429136865261959650304599719468546560402948134293965424717028491489504778220560274893805467835204402647487060578739827025448754935077055450244127077379461061202336910770195360419022320775169964499340212706614489490168002022153901013483142019175739644172265080181349764529203449801710026773980228174016719608488970074390164983654412710599101533263318482342738014213677970114988910131319161474103915501278144803177047636012443438290363708920112406053881910986901012458304025898729009614274686012775160092877414539676032400812772364290277707007535743790721483750072117041175671409800678545801214677192006272597432290251800058813295326712446000526423695431860423004730962931763088270041855321440870781300342943203726160620003900335791257485250031697510616497501000228564939920868716002425774850953310950025582325304207941300264020476020585665002,
  370780160703585240505666171938387854404985145986911519306048125781303828425980461826070523577614704526045708173024746044364867271400776390435018475125037871404267748484679198284041897357851334426450401165766446738727103814848160110853890037185343711555795950362266466139369244703527139480663133777034318083952117012850333647276531611233503240895201375413332031448160334960017290304797584178572526902950141807197411987028511345252796929160275085127032947226502649281745185155193025465132108940406720244272348207431811502338162322174515201022331238535636142670212791423807641173202022819691205891135019180796687689912190181386886772242312901710289817917589125016737577289036236050165101823539651659401534010339504155761014218210088974898740131345503201629506301279608755714976298012451201386970768420112445242626022075901012646145429791855009622799460662137270092913927071072189800812919422650608722007541290296502116120072136536758291428400679180796154111395006274500905159996740058865363995658663100526552252518202517004733785095002427840041860707514317738000343029171557142001003901389460182216300031698230853935151300228558750977034905002425464078794083180025576233657767960100263938608612533504002,
  396094474379431620506045353451223394804990728962136338167048133859077435529570461940883336854100004527648297186095187044386827779030899140435313800577684975704271644689931894550041947766299043219550401229698264693894803815642685723735169037195015204676227930362381727544503002603528483733166206141034333418728582147710333818300699170186103242758982052695324031467996266788455180305003638949286637202952229778500788154028531970752814199300275283615214860089902651141311891320782025482080009603930450244422492612259015102339454237129127793022342025798825740970212878748863396453202023504372975578809019185990722236360470181424967030950708501710559313936053781016755963931462710170165222590376592163001534772836116162621014222830377055004530131372324269268808201281097514648067707012459086349955384530112484997942256083901012836470736671520009631426502100524950092950833107560629800813067887874961432007546883202242661660072156172220389102200679819598242740515006276413568445080390058917623918872930300526681134700585102004736611180837665450041866094881391586900343115055896338090003902440556660736100031698946998716650100228552531988637820002425153606538925190025570154900900340500263856950312514524002,
  423096702068090930506449305076469594804996669103583055626048142442722753200490462062731664326630704529346934398806259044410074957362015400435626033214722233104275758734083106214041100092572843920390391297033763361877703816478452594888038037205175847756236760362502665383314593903529892405522278849034349468086624050970333997068388882045203244704691279575288031488678032516930790305218209372262384802954401300373493107028553394577931695500275489526619345503602653067998717078699025499617575898267550244577665943714144002340787748968280376022353146439014477760212968660011205658402024208450100488515019191325223293068000181464028370290668401710835409037906348016774777397331540640165346007414176468601535551101137510101014227540389523614600131399632517924486301282611454031207840012467094861319798720112525326927769949801013029307894869292009640156830642704250092988136072889336800813217770402753439007552522792470419850072175948237400260100680462220794356048006278335441539678660058970075212296380200526810341591190659004739441173338043650041871483511160215700343200856462211100003903489083270032040031699659064108125300228546283150268085002424843434538206140025564088994479653200263775500320451942002,
  451896693346707730506879605329451996604910298868950173950047151563110758423380462192035367765697504531147222451139601044434682130549194340435956113842675829304280102446905194050041105698185030573070391367948676294071603817357534994344336037215849591281568100362629550040949627003531368480649665689034366264166489303370334183917629381895703246735797129065704031510240319663851450305441633444530294702956659579046664327028575646314296311490275703126610997744402655064117120007235025517764343141001620244738028239796580402342164127215238323022364610196828454830213061229451272506802024932438914047308019196803748401194340181504094369572704401711118253310903637016794026844459675920165472128107167996001536345432381474681014232341706029748800131427435901604175101284150952821046301012475228622876550420112566236753832328501013224685106884294009648991474487009700093025839412475892600813369080724385675007558209352667377950072195865485887673200681108677117714742006280266543768796370059022717989880733300526939872799152341004742275056566188830041876873372784543700343286572975557627003904535042606160150031700367063343826200228540004655481267002424533563134852350025558035899528079900263694257840344146002,
  482611270832432620507337930788968184104910971135202264883047161252946801601840462329238691001377104533055081789187451044460726683350216460436305034104495699204284688281514399659041111608785802092840391442627526117263703818282108160561524037227061519583937560362762664342317568303532915074730211651034383840501549602410334379200652073038903248855908787854227031532719181182303380305674262020509375402959007938476507911028598756595308566280275924689597351774902657132054279962866025536540460899806520244903744360117907502343584677973385245022376427080774470530213156531274708827702025676868595616221019202429938950610880181545189132983153301711407999987301720016813721610543055830165601006890303294601537156132730831595014237235931039253510131455742488817970601285716394929741966012483489356437658730112607734666423890801013422630831060017009657931469754850380093063946593478508400813521829381305837007563943169268730220072215924643532292800681758980516315661006282206894387980890059075552363590076100527069727930570853004745112814578453120041882264435518648100343372205159499192003905578437284039650031701071009626090700228533696696803269002424223992664419310025551995577214800800263613222080238882002,
  515364661615956410507826062031730931604911686215725532859047171546876652509630462474811636530312204535076768179684853044488290279436485270436673839144253880204289529346206584855041117840479966245480391521264049816439103819254453050719413037238837902667323670362902304104053992603534535442944220212034402232076394274840334583284464429669203251068782064371531031556152086938582370305916459279637729702961449824469486999028622757136927601330276154499321728100602659274275450727788025555966711253511360245074984122845807202345050744916636032022388607374137409360213254641509710994202026442281467122505019208207522004561520181587337300306910301711704805503897047016833871216350384680165732699194374470801537983510214202745014242224694174798120131484560463989998601287308169279168432012491878804005115380112649827986840762201013623173783266833009666977860530253300093102461104866830900813676026966070964007569724529661374510072236126389124478200682413144288177819006284156512583042210059128578443402705700527199906588531411004747954431425255660041887656668709881700343457752739472656003906619269937245470031701770916125311400228527359465735605002423914723455160530025545967988855393000263532392252207498002,
  550288954693273880508345889916369675404912446768999723791047182481598505372500462629251417617375804537218891161389720044517459091086586720437063630407184837804294639437867026710041124410196800918340391604061643899996303820276961306712036037251206250317893300363048778710063041703536232985442686276034421475387248698900334796551445485098603253378325102629834031580577977044918940306168603210220429202963988808945046781028647680774105994230276392849165056919202661493326380612156025576064527564129470245251922445295989902346563710304902098022401161642042814000213355638168779889402027229233295993716019214140312160609450181630564057848780201712008829563097215016854485368967252940165867261462542698601538827878083393346014247309650559785680131513898128884145701288926669855580705012500398727962696030112692524112301080001013826342938589871009676131698899438290093141386457492541500813831684122408816007575553722182379100072256471402555179000683071181725617970006286115417469771300059181796337312955300527330408373120571004750799891151417440041893050041798984100343543215443220731003907657543217803810031702466795979902900228520993152760681002423605755828097980025539953095911207700263451767572319462002,
  587524585920330660508899422237015060904913255614330971777047194095981268283750462793083989909688404539488433481898880044548324040837434930437475568581720880704210003307702951835040131335730927125070391691233830344223703821352140446272889037264195368594408770363202411711608357303538011253566259448034441608504807883260335019399964326918603255788604309173133031606037317110045230306431086110029544602966628594340227030028673561498388602100276640042456941286802663791835803914079025596856013773257250245434739488262879202348124996025197657022414100738688293690213459601297006071002028038293604516241019220232213448525930181674895149556737301712320235195037120016875573965091310770166004751166885664901539689554891728687014252492481166214680131543763904044085301290572295764746739012509050911269098800112735830516554741401014032167533022577009685394044990433460093180726184159775700813988811545278475007581431036117431260072276960364807094700683733106115029262006288083628093664280059235206151333156400527461232881443134004753649177796499640041898444524320197300343628593000782428003908693259795988720031703158662296275200228514597947347058002423297090097091850025533950859988772500263371347260617064002,
  627220852102044880509488790767604475904914115741323307975047206431189479344870462966865666787356004541892771570921919044580981055695962970437910876690490928304210572554466348681040138635785141696390391783004744252594203822482619289066614037277835418799880400363363541452958515403539873956320716580034462671139577668340335252245022448880103258303850500723551031632572155473271860306704315104207248202969373018160636206028700434496710569500276896392796225679802666172518005182170025618363964236517450245623620804181473502349736064658986088022427435814747481180213566613021442058302028870045985741119019226487221265772280181720356888350369401712639188820755779016897147094379159100166145226825181664901540568864573400014014257774893166523510131574166330247654501292245451287544249012517837157652400940112779754750496207701014240677065165325009694765967012704910093220483839695281000814147419980929715007587356761699258140072297593957945814200684398930736659653006290061163429646910059288807989495558300527592379707639091004756502275395136100041903840085901366700343713885144483645003909726422360120770031703846528148802300228508174037954647002422988726568908620025527961242839190400263291130541090326002,
  669536455919072640501011625871922309104815030319892736041047219530815210056940463151184822893550704544439697103602473044615531334543837430438370843337582819604211173292077148396040146330015300418830391879609644206389603823671153627997328037292157979039369520363532521723633070303541824967119099468034484704709819467750335495518920840039003260928465280373596031660226182489962370306988712681041036602972226057682404519028728336191430719450277162224381344278202668638175458285388025640611884110148180245818757489215616902351398420576382892022441178324950360330213676757601584399502029725088426065055019232909424351264360181766976167657998801712965860316450625016919215042845712650166288748017933505301541466136523832905014263158620289464730131605114069975773401293946545936029612012526759291805860920112824304442780567101014451901297930024009704248541296845690093260663001018439000814307520226961638007593331190106026030072318372865110924700685068668864391478006292048042381802980059342601953854367100527723848442900425004759359167977365230041909236696264049600343799091608927570003910757033616364790031704530406579795500228501721612039954002422680665543288880025521984206357529600263211116641652007002,
  714640083492330310501078422863403040604816002710854075961047233441017335465590463346663690514130804547137439710147126044652081629398346940438856826119713069704211807212488317006040154439077346396990391981295446324945503824920632156408219037307196108473041780363709722438335571003543868330801049834034507752412197872510335749671952721590503263667027650427439031689044791938370020307284717246196474402975191834809856872028757304281637445580277437872350729466302671191701542333114025663624010304053120246020346339369067102353113611057837596022455340035843803210213790121480988040002030604033634612315019239503006798077910181814780473165748501713300423078824295016941788296316677660166435375405634698601542381705681085568014268645423180027770131636615908895897101295675994509976180012535819159585042180112869487300442643001014665870260249579009713842852334267710093301267267211000300814469123132380098007599354613459714880072339297770507100400685742333765521053006294044283783104600059396588144487791500527855638675488073004762219839568960540041914634325223609700343884212130985241003911785096288532730031705210310599480900228495240856061251002422372907313014810025516019712582228400263131304794112941002,
  762711016487639500501149525074062986704817036477112414138047248210668570611000463553960253717590704549994690890847068044690744541225007380439370255209311501604212476095853589181040162984676582682150392088321283098342903826234082662299695037322984414378062910363895530345703406503546008270940281833034531859295234183380336015173122875001003266524300870281456031719075144620217330307592783696012527702978274621093802413028787377785765418510277723683133570123902673836083336554710025687425333016104840246228590010719077602354883227443938697022469933033736304740213906793340036597602031507509379550398019246272250105808950181863797894782164701713643054091541284016964877543934921870166585170746281221701543315912608290830014274237089763462650131668680757360214101297434217153888805012545018628206290850112915311109519326901014882614248793146009723549992816941370093342300259586662300814632239597654255007605427324824469650072360369359395157600686419938700538819006296049906395145790059450766659500160400527987749990748855004765084274191758350041920032942689315400343969246449786104003912810613117883900031705886253185972400228488731955483688002422065452163976620025510067723694501300263051694234157435002,
  813939780770490790501225203179711134704818135395492712151047263891510693804040463773770245417128404553020629198515104044731638831031077490439912637117904469004213181814983606511040171989619292580070392200959088100809803827614678501154060037339559122137463980364090349767047636703548249197451536732034557072335672569310336292510894537012803269505239568005080031750366234229603880307913384010482000302981478842915469117028818597085562378950278020014811215618102676574404496289215025712041617862741490246443697183873447702356708906313992181022484969732830910890214026864149891975802032436158831470022019253221535273276340181914057138821810101713993933992810194016988493681721417700166738196913131522501544269103577150588014279935435613431150131701317651918619701299221639414494292012554359586446548460112961783735675008701015102163829686524009733371063677154410093383765621760390700814796880574771987007611549618204923090072381588318083082000687101496922909686006298064928907876490059505137595024002300528120181971132179004767952455863982110041925432518664432100344054194306708443003913833586862928920031706558247285248200228482195094784502002421758300375239400025504128202017741200262972284201318937002,
  868528833734820620501305744444944773904819303469242938079047280538318399394910464006829252781509304556224946753461973044774889747004649440431048555864857705204113926340019990912040181477866815683290392319494207741250503829065745359442586037356958148278927430364294603366302601403550595714508799918034583440517869546750336582193964872281603272614997114585043031782968955567354550308247007866559916002984809086841272161028851003971446497240278327237489530616102679409848212301329025737499428621354890246665882732755218302358592330694043979022500462883550484460214150427227647689002033390640913966155019260355344932293690181965587540411491801714353247144109025016101264781619153140156894517912717967601545241630652495457014285742304324325270131734535756846620101210103869229871227011563843944844520070113008913124830200401015324549840237958009743307174127300960093425667019717540100814963057067294465007617721788544506530072402955333917057300687787021678854521006300089369939341980059559701045222342300528252934196207146004770824368600570130041930833023246309700344139055445370032003914854020299235220031707226305811132900228475630457458011002421451452219108390025498201110016922400262893073938955824002,
  926693292549512570501391453713445053204820544941247982491047298209072245855280464253914936697941204559617877159365339044820629368500871270431109069104670625604114711743337656086040191474592192431490392444226041256699503830590768321390075037375221176691361820364508732952451964503553052628786996976034611014916321386840336884752070068836603275858933270088815031816936175180314140308594163272461803902988270105153748873028884641689295849360278645733682513093902682345700255688047025763826150600255960246895367897820783602360535231295026638022516425581059477060214277578292710353702034371630661556009019267678265523227540182018419076122665101714721181700069944016103735126802736550157054198903112557501546233851777919382014291659567887792140131768344365688250101210288581233210808011573473635903195290113056707303793291401015549803390669316009753359441699697460093468008141882749700815130780130409580007623944131723723130072424471095272433000688476526207131319006302123248035423230059614457102290832600528386006242679283004773699996413494340041936234426626466800344223829611618609003915871916219232130031707890441645276000228469038226020819002421144907961193280025492286410298018200262814062694227416002,
  988661705693006830501482654455809914804821864307993625761047316965141189431250464515849371281673304563210224891787401044868996967715675650431172979435859032704115540204686131481040202006239495023590392575468710206506703832193399252097802037394389738152300170364733200315747520303555624958039848582034639848781448272150337200736821138497503279242622111316445031852322804507700330308955377223634419102991866821564154842028919554988712748060278975898707496601702685385352110700823025791050014652435780247132380463819977402362539387781726249022532871273986487230214408415524434382002035379819585073827019275194989513079860182072582376833721001715097929679540943016106261557580692140157217306212449970501547246130862500588014297689127073494980131802752902814102201210476344161782973011583250614293722330113105174380895447401015777955865852378009763528992286417370093510792699188586700815300060870984449007630216944558408030072446136291544703800689170023738817456006304166581669579610059669405856460109200528519397684407502004776579323312082300041941636699090674300344308516553522477003916887277432018760031708550667637133100228462418582016792002420838667860473080025486384065607409500262735249718070180002,
  105467687027993820491579689878175299104823266334321928994047336871475219257160464793501509732464004567013396234655771044920139389927962160431240472200805069704116414016581164768040213100585967718590392713551758779107303833877464510670929037414507293304528380364968488099088391103558317940027041421034669997628758332370337530722571542276003282771860250835766031889185875619291910309331196381103116402995604337112380245028955790172806922410279318141092266893902688532304197871664025819200121849740220247377154942209344602364606630073283858022549813773351986420214543039621035577802036415916044685496019282910317656852040182128108740825922901715483687037842014016108845249979085360157383907357711160501548278837868621551014303832911814159220131837770924994622401210667202789603375011593176857060654830113154322546628722901016009038927050641009773816960179161760093554024425144020600815470910447616835007636540524797958830072467951613140430100689867527497091873006306219389242594380059724547395998074100528653108092420866004779462333303335100041947039811019032500344393116021361019003917900106763172920031709206996603949300228455771706022131002420532732169361030025480494038831292000262656634265174038002,
  112499669782432320491682924095053706404824756069021632703047357996808636700810465087789783157703304571039431843743675044974211453233477850431311742560155364804117335589958378835040224786807104963780392858820886278948903835646973007557519037435619319225838160365215100705980604703561137041804356750034701519331519054880337875307317798840203286452675357614051031927584619632841470309722187772920295002999487936260001306028993395149542645050279672882994430675902691790169189880630025848306468834391920247629932758331533002366738839675952733022567267261705619680214681553859809279502037480645630664900019290829161302933140182185030147116654501715878653740232758016111487402576753860157554071063770232001549332348900896657014310092881594926330131873408122988698501210861202460379824011603254363828551330113204160074287230501016243084513666085009784224488109136450093597707075902589400815643340070685543007642915171123546100072489917751468162900690569050697018161006308281689082322940059779881807212268600528787137034935571004782349010392242620041952443732886042100344477627767615336003918910407054560930031709859441330742800228449097777650346002420227101133765770025474616292995106900262578215593958944002]

/-- Rows from 800 on. -/
def besselRows8 : List Nat := [
  119989513123265930491792743370007589704826338861299484267047380413874550093890465399684839319562604575301041020108996044103137636873830430421386995997289493404118307460101298433040237095544801506770393011638713220322703837506124620903001037457773399741669090365473565246553223903564087969390922921034734474217068301200338235113634275775303290291334989817374031967580547901085240301012893951946357502810352309318246976027103241948469635260261004056063338486402595162675422679413025878399973865335200247890962443477524102368937951048858981022585246302477671700214824064158679940102038574751552082210019298956544743306930182243379269033970901716283033836610337016114189236895730050157727867282708223801550407046296222216014316471025847069200131909674323147754701211058389093553178011613485157009961250113254695320611585101016480124844991425009794752727286969280093641844430330402700815817361002399905007649341183146300340072512035398929337100691274606545328134006310353499443443800059835409174452293600528921484077371702004785239338582101130041957848435260680700344562051546958780003919918181164148390031710508014570291700228442396975557269002419921774993155250025468750791262947500262499992966551579002,
  127966311597650010491909557427972468204828020378180858416047404199631185615020465730212428614629704579811637780526927044109180618222604630421466448847900238004119332292856615236040250058978714488110393172385582514955603839459318987326298037481019319636279230365744432523162922803567176677828269448034768925166901754770338610789643403321503294294355750683125031100923753606138970291055206158335309602810771547826659826027107291445647240040261042162473524222902598653670404433319025909512503577144670248160499831949657402371205953003518006022603765849549266450214970679139108675702039698995033550098019307297607609340460182303189488036182601716697035537454836016116951997797651140157905367213396408101551503318714957396014322969364346094580131946579489035363201211258809190387446011623871282014774160113305936726436426201016720192421967408009805402837442633790093686440290073879400815992984556848129007655818861405473030072534305248909145500691984208240205677006312434838507211520059891129580112251700529056148782370157004788133301874821360041963253888806468400344646387116247625003920923431965814390031711152729043120500228435669477446010002419616753980619280025462897496936981000262421965648762234002,
  136460962855947980492033800843253504804829806622890619044047429435500646394400466080456444965756804584585378816257223044115568223836167810421550328855895336004120412891150146682040263710900983714200393341460397304155203841511164683167179037505409162924388560366028278057179041403570409381646421998034804937720678675340339003010022594317803298468512778746697031105262191104422440291099218654478256002811207096481969600027111493311182607770261081654099108004502510226712442491873024941676900469767430248438808263247046102373544890137881997022622841257046051920215121510190386432702040854155720181387019315857607313960640182364494907780490601717120871291040638016119776953886238750158086643321352617401552621561233249367014329589947614272710131984133723062528601211462509840109750011634414807460949060113357892817341112401016963320028945162009816175986865394950093731498479627209100816170222100044682007662348507366577740072556727995767373300692697868971071149006314525724381212270059947043104633256000529191130709809435004791030884271244410041968660064281530300344730634234511632003921926162349164660031711793597437486600228428915460071921002419312038322930060025457056373456880400262344132910061884002,
  145506276556777760492165934507438694804831703954267880214047456207620784677110466451562129693600204589637203435976395044122319566854581110421638875756886584704121552201817550894040278086794462707530393519281497052105603843666488812913325037530997415351671160366325703158602300603573792565752837855034842580184292879150339412477049198199103210282084958407414030109780254113964670291144997040308229102811659563599688872027115853032454432930261122579052888771802510600713426807840024974927011147783710248726158789497539602375956864305709459022642488289360174470215276671535340745202042041032090912736019324641921541029060182427330368444675401717554757861932872016122665397915930070158271769358873745701553762175436514341014336334857327641170132022347268138774501211669538726100342011645117825386636470113410572204303605501017209540735453963009827073352443779170093777022846399654900816349085049976601007668930423419507040072579304334829243000693415601918366379006316626175099121850051000314982650595600429326429416822499004793932069771445150041974066932538656600344814792662944648003922926375219345650031712430632409371900228422135099247445002419007628240603700025451227384399238300262266494023559382002,
  155137089677649570492306447181702807804833719107271173708047484607110886301830466844739446842332104594982875593410997044129454790358636880421732341890590951804122753322764494200040293223914619807660393706287573585460803845930347022201964037557841071299156440366637336040233629303577332996760568723034881923742161098150339839921684862278403210735868824253646030114485092922411600291192609340535716402812129579195334477027120376285513598410261164987039959896002510987792703049935024100929771532826290239022830388262666702378444036122060069022662723131405430180215436280297484365702043260441880350083019333656050782727710182491731461305838501717998916410786805016125618647206737930158460820385447559501554925569514085476014343206206727510700132061230509339086401211879944132132833011655982451463679810113463983584357507401017458887897973958009838096119705560260093823017260782556300816529584876648885007675564912876625660072602034962376207400694137420253340381006318736208620467290051005944982227313700429462044457813607004796836842375042970041979474464525366300344898862164895314003923924073496863900031713063846582473300228415328569847069002418703523947960570025445410493477000100262189048265978888002,
  165390388597794390492455857138219665104835859214633529577047514730351902927800467261266638860963204510063902810514100043136995121241033480421830992843529840804124019510471630270040309161375275569290393902938628835916203848308033953506088037585999745273567360366963832978175729903581037734772645350034923042573886340380331028610470072100603111208963996056053030119384130925322300291242126090306832702812617795722832579027125068941258477490261208929407760443202511388386404865091024104482495563679960239329110180845263102381008626505739027022683562399110598800215600456569634795802044513222509295952019342905620925790600182557734543580307201718453572575469587016128638044065422180158653872788447084501556112158355039475014350206141036513540132100793975586857001212093774948664903011667010825212502970113518135741252193801017711395161713808009849245482857752710093869485616216062300816711733102128576007682252279970838580072624920575636728900694863337137834698006320855842830388100051011594316653229000429597975384475071004799745186081504620041984882631283952500344982842505857639003924919260117400450031713693252548191900228408496045812175002418399725653185940025439605664538894200262111794917637450002,
  176305438340202130492614713895656783404838131829730132211047546679282005483550467702493971990639504510662320916922139043144962926809669560421935108123477053404125354187860443735040325940238349991270394109716976117158703850805094163362224037615535788172907990367305879520518980203584914145640314949034966013975459559170331075181784488358303111702161602321042030124485074612936050291293620423745458602813124888836819156027129937071801997810261254459197615209902511802944493779748024108154576821178840239645293656232696102383652918259533852022705023150156079990215769323484034371702045800231524122021019352396385887439310182625376753528950201718918956553523934016131724956213059490158851004304111115901557322363645215809014357336837879244450132141048341352968801212311080679179931011678205110218414800113573037546116241501017967096462393762009860522644826632890093916431829255717400816895541300588263007688992829853643960072647961872777058800695593365724070665006322985095539404050051017262993193834100429734221745804113004802657084890448100041990291403951541900345066733453461702003925911938031633190031714318862865630400228401637700155871002418096233558388210025433812861568863800262034733262422675002,
  187923919381339990492783600053995479704840544950724520251047580561708272065880468169847681176002404511295393130065569043153381774257231250422044981867172660404126760952536726801040343603607800612560394327128286844269103853427333520760061037646514408523984520367664191746132726703588969913713399262034101091848516860270321123788505373888303112216283913885920030129795923905659290291347168165471471502813651558179567264027134986957036080380261301631197805118002512231931174555754024111949831413737050239971684900810400002386379257689096143022727122894958981880215943007284000597402047122347045149516019362134230301859490182694696025831978301719395303185992410016134880777219088810159052294038813712801558556613965437400014364600507707516540132182004428371048501212531911446579528011689567494349286880113628697958123880701018226026028033470009871928817297766810093963859839638679500817081021098348133007695786868593155020072671159552891970300696327519154436120006325123984483182680051022951018920632100429870783088119647004805572522801943510041995700753760135500345150534777464333003926902110205054740031714940690061583100228394753704967832002417793047859658580025428032048685498700261957862587770696002,
  200290072459730470492963133234204093904843107046062791273047616491635365515550468664834124813198004511965072280544775043162276493137652130422160923582890542604128243585429215262040362196727940461140394555702684684979503856180831107125241037679003798896460720368039517575558086203593213055101730877034105784001438960620321174516370865061303112752185519416723030135324982849877690291402847925190188802814198528193296076027140225091399248390261350501998210885702512675825322317115024115872191172610740231030859683398475002289190056261348366022749879607911996910216121637397137561802048480468224207358019372125172258109200182765731107237627901719882852042622563016138106926941920860159257822490626482301559815344890947758014371999394230284710132223673207369089301212756317999627438011701100189974656430113685126025164704701018488218380744883009883465220756053770094011773610349759700817268184173917192007702634703172102960072694514315995482000697065810561273008006327272527322309500051028658400711411200430007658955079081004808491483816812510042001110652036658600345234246249739761003927889779617795640031715558746630535500228387844231419070002417490168747129760025422263190141471400261881182184644175002,
  213450851838419000493153968128590381304845827081388930430047654589612099789540469189044160162257604512673418192087733043171673240996679090422283258929520230104129806059841691878040381767086333013820394795995889215537003859071951639156001037713075267706042690368432638136073528303597651931467315244034110686598344209110321227454593966832303113310754543352167030141080870686047730291460741195450887002814766548958636829027145658190853338350261401130046573847602513135120921760445024119925706967280150231065635144985652602292087792303306913022773311738881446700216305346510139402102049875515711536874019382375366090331100182838521572488982301720381847508472527016141404851976195870159467671571176668901561098999092074706014379535774848266990132266065799817481701212984351719444877011712805434186221960113742330884516463901018753708338530119009895133084525775600094060177127687173600817457042258033401007709536641485815510072718026863011565200697808253066665621006329430741642061340051034385145250523600430144848887695016004811413951936925750042006521070202999500345317867644270359003928874949264446580031716173045034658300228380909449766737002417187596405032140025416506250322979100261804691347510557002,
  227456087501534440493356798667973743604848714547958233375047694983096840422670469744157750793767304513422603375586605043181599572310750850422412330533900321104131452550937685289040402364521469898400395048590411241358303862107358436642041037748803376627818850368844369183083904203510229526436759112033115808746269552790321282695997793573303113892913907756085030147072533301406900291520932452675258002815356397060053983027151293200075424070261453575706419023502513610327518770078024124114552110149490231101528006508969002295075012742235833022797438224970003790216494270645217572502051308432132217811019392891105221178970182913107840533398201720892538871937681016144776026106776900159681924627804783201562408026436134901014387211961093312110132309193479693626501213216064626057894011724685489019763370113800321763521110301019022531017084372009906933646810669630094109074401328060800817647607133702773007716492992340176830072741697895764820800698554859782229176006331598644952182550051040131259029167400430282352424352091004814339911165496650042011931979776044800345401398737137284003929857622153881790031716783597703805100228373949529358879002416885331011753600025410761193749181300261728389374320472002,
  242358656791666630493572360312148906004851779492629840000047737806842732814910461033194881800691904414214919017180405043192084510895692570422548498848220524204133187445677745890040424041335445979590395314096802033349903865294026958294516037786266083849451970369275562580065323803510715215017091171033121159931912173810321340337155853523703114499622639588693030153309255080026080291583509261559707302815968876479042577027157137299871222330261507901316686702202514101970684766737024128443025852811640231138572357312340202298154334888061306022822278502549709500216688549238184124402052780182572290785019403678825059360310182989531191018932501721415180414218322016148221950769564830159900666466024970001563742884090590047014395030299072549190132353067675263194601213451509384996556011736742641678466640113859107980263917401019294721831603591009918868154733999130094158469464393713100817839890636237389007723504065449558680072765528116971153300699305643808898973006333776254686662900051045896748345673700430420169100823667004817269345507378160042017343352367723100345484839306511315003930837801309087120031717390417035514700228366964638639122002416583372739894110025405027985071643400261652275566486253002,
  258214666022707880493801432470460846004855032549523648171047783203303802916230461095429034875143204415052781275102064043203158625954348610422692143049392750604135015353230170952040446852411855748160395593154958825067703868639258929550553037825544893402962970369727107839382939903511223207556613857033126750036849438410321400478537556616003115131877224956030030159800671163327950291648562382958480002816604819515946185027163197914816425100261564171253119977102514610592494126550024132915556976178930231176803270487808802210132844825899673021847852519570984280216888325218223768902054291755074755400019414745105952223980183067833781082292801721950031500249094016151744155519222720151012398337229165601465104036627467412014402993169917353530132397699970878159201213690739313946556011748979204757675690113918698944255807701019570316498597142009930937864378634330094208366373514568200818033904653292514007730570171434737170072789518230228414300610006061823672072005335963588203517900051051681619305798300430558298450288578004820202238969352140042022755159685026300345568189132643502003931815489766982430031717993515395006800228359954945151426002416281721756323330025399306589073785100261576349228860593002,
  275083642632249660494044841059677164204858484973431344177047831323063028260040461161315977320912604415938737900721183043214854111940249420422843661982378788804136941115876979966040470855339144609390395886435489014193603872150697087287921037866725010823199880361019993372638666803411754493368904707033132589353344388760321463224659131585703115790713011948069030166556780134603430291716185885357837702817265087741264347027169482721132575970261622451991456928402515136752015015674024137536707476837620231216256829611014002210460011645134884021874180748153474490217093745089388104002055844161145625873019426096676194330130183148058662432892201722497356671111285016155344198503899130151035196313707599801466491956129058178014411102990237180580132443102108791725001213933808389453357011761397516471060430113979104157118820901019849351037705259009943144040827146860094258769208894901900818229661124902398007737691621820774540072813668940007014500610081979614463995005338160662784571790051057485877823010800430696740003347819004823138575560417420042028167373530045400345651447997855938003932790690578253270031718592905115187700228352920615544747002415980378222236130025393596970670316800261500609669715559002,
  293028738468659460494303461206730182404862148675075990926047882325283533383120461231064462584654504416875475199962259043227204872422767010423003475149553289604138969820437913610040496110539658779440396194641135614415503875836340567401695037909895505390892070361069500992928174903412310104088907665033138688600758357810321528684240144663203116477205663729568030173587957141497750291786477260054922002817950572977344036027175999654804302900261682812172477506902515681025813995083024142311176352040390231256970156157344402210797217905449915021901284197464699750217304959013846325802057438436270231121019437740415092974010183230249798737733201723057425737949330016159023666947043940151058469507825582201467907122294906169014419362212578305240132489285990990280801214180771253679357011773999940878223040114040333213274772301020131861773521478009955487958201905710094309682074377312700818427172043515340007744868729034897880072837980951640563400610158319060029389005340367495635244460051063309529618797700430835493288041343004826078339292082440042033579965799996600345734615686532556003933763406807177830031719188598496646700228345861815577706002415679342293207650025387899094906711100261425056200721410002,
  312116944840554280494578220104305605404866036258319534493047936378184122277150461304894850443209304417865825352055934043240246608147878280423172023748275120604141106810236232259040522681404647897570396518508266608950503879704560962229018037955149479228107180361121334879736348203412891115416079915033145058942593021240321596970365818397803117192472663599227030180904967470841150291859537540158053402818662198311372962027182756919944877600261745322668956228802516244008474756795024147243803485796370231298981437614822602211144755361206372021929184426892500860217522120896926485102059075640439943874019449683356091598510183314452083311638501723630513877412255016162784177636400470151082227006482225301469350022550098342014427773325887499270132536263681042425201214431683221213765011786788868113728000114102395800637027901020417885337419741009967970899705179880094361109097506875500818626449454027501007752101806404335680072862454971316439600610235081465980269005342584103884338240051069152580222965900430974557829864584004829021514178648760042038992908487238000345817691985109901003934733641531458430031719780607807668000228338778710123188002415378614119248090025382212926958627300261349688136925894002,
  332419319990871330494870100027682332604870161059422788992047993659540422379900461383039734223271504418912774103402909043254016909497815900423349771758939961204143357697631151729040550634435485487340396858808430968680903883764119075914316037100258424352455780351175600715030545103413498648926538813033151712004185009900321668200655356181103117937674873791350030188518980590682840291935471423529020802819400919140621392027189762997417290200261810056654573383402516826313131363825024152339573638588130231342329956310254902211502923763026767021957903559517506620217745388473982954302060756858689533002019461932689952109370183400711357117774301724216901728642442016166627377420271390151106478054090700101470821152154871472014436338855980698870132584047405965268501214686600285936216011799766714617566990114165301701305468801020707458669386357009980594157659249750094413054429595053900818827505453815724007759391168154146050072887091706066372700610312268136756114005344810504583829050051075015034973941400431113933151785304004831968084237493270042044406173679297900345900676682067900003935701397842050690031720368945284227500228331671463173023002415078193844857990025376538432131382900261274504796733527002,
  354011229693918480495180141521676291104874537188467897809047105435721297923400451465744600935572604420019468855183901043268555353562385430423537207085890097304145728377142847612040580039391383723930397216349984212143603888024182406928668037105230150218397690351232408816129038503414133873956828017033158659891077004150321742497436484780303118714018149850057030196441584674827030292014387399791298202820167724250904347027197026653718205490261877089674838641902517428572016374029024157603620543297100231387056118965466802211872031063458492021987464295891881060217974923399125683402062483201645331082019474495767997069120183489074427083160201724816875491833068016170554943711149090151131232055013363401472321014315546667014445061366016692690132632649558108027001214945579127933597011812935923367059920114229060792264580701021000619019856492009993359033546501630094465522245783336800819030352192769284007766737129405015590072911891863757000800610389880375603181005347046714708658870051080896899019085900431253618774260166004834918033489354120042049819733558883400345983569567920775003936666678842999930031720953623130003900228324540237842515002414778081609080700025370875575859410800261199505501885090002,
  376972601711981770495509446767013606304879179573058997054047111866970370890330451553268525999128904421189227164246599043283903606044688290423734842753665672904148225039197107745040610969443890841190397591979786504563503892494343388139244037110440754319108930351291874331687878703414798009562017482033165915208090073000321819987926434450303119522755012466258030204684801625655920292096397881531957902820963636929264845027204556950132378290261946499720082459602518051437024238048024163041231109982170231433201487000855102212252393627571957021101788992813079270208210891335848030402064255806084417606019487380105412800970183579589084734205201725430727028377307016174568584996806530151156498576029691501473850120296807034014453943456975889110132682082697053138501215208677120471134011826298964110213110114293683046084753901021297403951555856009100626683804955960084518516745106583700819235001873320629007774140006171040080072936856153080416300610467919484553831005349292751156532440051086798177315006400431393614215251313004837871345958609110042055233560403901300346066370435207749003937629487651271340031721534653516379100228317385196375069002414478277545556610025365224323705702900261124689577437212002,
  401388194888207430495859183135954410504884104004422808306047118680674218637620451645884904313595204422425545677736223043300105528234380250423943218161194061504150854184517901837040643501338471803160397986584976416821103897184638416037792037115901343801129620351354117445661789303415492326550949651033173491079122880140321900804419583469303120365186378727495030213261102611504980292181619339828655602821789716111905905027212363252165294730262018367300571942402518695580290369884024168657849742208470231480808807603775902212644336448601853021104920435432307610208453462049589796902066075835505013852019500593384614406190183672304125157024901726058753962630329016178670041358938180151182287348837322401475408989535327425014462987768144178200132732359551534886601215475952337017173011839858333600499720114359178531626641401021597851341346417009101931889109137910084572042150556111100819441466750474965007781600115357483220072961985283544677200610546386764405870005351548630747714030051092718874627871000431533918990243062004840828005673554350042060647626587464300346149079078483977003938589827396587440031722112048582454300228310206500146689002414178781782576010025359584641361286200261050056351742182002,
  427347883694854930496230586947511651204889327186037214724047125898990332308380451743882219524558804423732109522920840043317207289292496520424162900396632327004153622639197389380040677715563485791580398401094823595554203810210556770201751036121623524934746090351419263589550798103416218149601547454033181401167704284760321985084482001711003121242663354795614030222183424135370870292270172444237207802822647057568429741027220455239262036000262092775523809499902519361694786300139024174459082767701160231529922045579809402213048193368744145021108143209326781990208702809502273818302067944480708298413019514143458673762040183767269366287806501726701259785308512016182861084999454720151208608272586662301476998149754774754014472196977601959840132783493021375765501215747463558322608011853616555833114530114425557414748797501021901999382077406009103251652187537130084626102709142481100819649759131839020007789117774758509840072987279965464339000610625283514702066005353814370224828440051098658995533734500431674532612258565004843787996666681720042066061904577901800346231695294311351003939547701221262780031722685820435051700228303004309670508002413879594443131580025353956494644681500260975605156427845002,
  454946959100506250496624967433157627204894866784922491748047133545325806489280451847564853417132904425112802174686103043335257484103208150424394485615700055404156537570474176998040713696526887347630398836482663729005103810726811597989242036127619424759059340351487443663255802503416976859459203581033189659698326778990322072971153135615303122156589092090311030231465184652243460292362182207379081502823536795123471434027228842914820563470262169810174073944002520050494931330402024180450702986147090231580586416005195802213464307305222259021111459829954359810208959111948854154302069862960391847122019528038354811543040183864535668538135101727358553958547671016187143520774521300151235471416449367301478618137082188235014481573802718357840132835496179440630701216023270279554936011867576182282668240114492829959018370001022209886584440592009104586106892550820084680702691958025200819859891377648386007796693303054903070073012740909950927100610704611033709596005356089986252663780051104618544418857700431815454591876214004846751302974953150042071476366938762000346314218881249444003940503112280042900031723255981148727100228295778784601336002413580715644969320025348339849501360100260901335326377662002,
  484286446666743650497043710924488458604810074148573683091046141644405882419030451957253937468253204426571715824249319043354307256959752020424638600486468225504159606503251991866040751532740991961760399293767919333272303811268377410522482036133901713631432170351558794264878412903417769895221379885033198281478589156970322164613154885001403123108420709123839030241120301752881010292457778134272276402824460101916844640027237536616507840120262249559794265225102520762717221117535024186638654337036710231632848417699171102213893030481738834021114872877891726180209222552035914951502071832521754907813019542286277954330690183964154954760444201728030952022643533016191519186736438530151262887022221092001480269496165753267014491121000650667120132888382273608741101216303432717486820011881739792142332970114561006526424948601022521551778830035009105935388012642830084735846394239027400820071875900794060007804327019811752580073038368828903417000610784370618399616005358375495417976360051110597525480036800431956684437246390004849717908640073610042076890986328820300346396649639846360003941456063739941340031723822542765781500228288530083740077002413282145500642110025342734672003218000260827246199710992002,
  515473442834247990497488285274924957604810697104782512103046150222346144611770452073288248687875404428113162273769657043374410431364227350424895903703704186804162837337392353275040791317015661466140399774018210030036203811836456158345901036140483628717667840351633457929813078903418598756711660110033207281922177816680322260165108330820003124099671281203500030251163209932425360292557094376553535302825418191703351181027246547026887458030262332115770115776802521499120873629039024193029056690519330231686755867535459802214334724665432518021118385000409938760209493316902360300402073854441115727460019556895614357934700184066180230559000001728718775704499242016195989954683470100151290865506958923801481952780293985537014500841368849089810132942164728763880601216588011817740288011896109992564470470114630097578097607801022837034117206845009107299631276354400084791538135427722900820285725166847974007812019245476132520073064164434998716000610864563564426964005360670914229299620051116595942724936600432098221654107900004852687797708763600042082305735502073300346478987372629661003942406558780080340031724385517296270200228281258365038264002412983884117558780025337140928348047700260753337117763338002,
  548621470410134490497960244528164821904811357636537760480046159306728559910490452196025151983137204429741684382701671043395623646233837680425167087576011420204166238365816282277040833146660279539860391027835155613588803712432305006531022036147378998460650990351711583379492192403419465006946612826033216677072717085250322359787758381150503125131911900285055030261608878962778040292660269891743800102826412320193434593027255885184367633820262417572416832730902522260488492917963024199628210764285750231742357935612369302214789761409460093021121998913085348590209771598282234959902075930024541145067019571874935297993530184170665604951536001729422353027802538016200557730717711160151319417465653857901483668551516335792014510737745566787820132996857148802625201216877069262085972011910689418902707810114700113675025108601023156373074968132009108678973356314040084847782259233895600820501451694087237007819770301374747200073090128441682094000610945191166109765005362976259116753220051122613799972423100432240065745804518004855660954233026310042087720587307735400346561231884097286003943354600591531440031724944916718017600228273963785602398002412685931598035720025331558584859000900260679607425066923002,
  583850854323138590498461233846773325304812057953086310855046168926681557495150452325841591388972804431462068092972763043418006498819756170425452879689149205304169818293451627846040877123694903411830391080793867954188003713057238784940597036154602268066649610351793325780158482003420370274698944095033226483628520026530322463648206611959003126206773807337041030272472832888266340292767448607713530402827443786435893846027265562494478697000262506027068237066202523047626751179296024206442603169581310231799705181301514902215258522301327703021125717401446629520201005759260971742001978060608488672092019587233000828989960184277666311386902301730142018424956672016205224455811097940151348553673938676801485417380765229178014520813010375293600133052473318660841701217170667475798057011925480734955477090114771065478779141001023479608452820501009110073551873246880084904583133696254100820719068053517481007827580509711558860073116261563157624100611026254716409243005365291546431856220051128651100852903500432382216213301565004858637362270417320042093135514690240000346643382980708532003944300192377158300031725500752976629600228266646501698450002412388288039346810025325987607984068000260606056469331288002,
  621289118770856010498992994715005258904812800390191000751046179112964358314880452463135132623155704433279355061352270043441621694658942370425754044649069444204173586257064185815040923355070994243370391136400540602527603713712632543376698036162168526049989840351878847012052945003421316257160544407033236718968272287940322571920152588344503127325950599650737030283771169664732740292878779592509192102828513934243907410027275590741489444550262597580168467543502523861367089560348024213478911589521710231858849590195617702215741399217097702021129543322658663740201035150112632732101980247560461286589019602978763612826370184387238729124333201730878112850790411016209992106379665920151378285090831698001487199847979555249014531070084685339670133109027206358607001217468869635065148011940486633211045840114842963752240833901023806780378658079009111483505399982800084961945151243478000820938586868895073007835450193565397710073142564514378603800611107755506909502005367616792447342390051134707848808668500432524672555202282004861617005884309280042098550490689221300346725440470874952003945243337351457660031726053037985509500228259306668756208002412090953533773010025320427964295554300260532683601424109002,
  661071406943797810499557370430691421604813587417181696757046189898055772830530452608325059543228304435198855928723040043466535204893982080426071385908365976504177551846012442683040971952902145560180391194783517330405903714399924215935251036170093531878360530351968315949420801803422304722709161869033247401177682640880322684784143961283103128491200515606674030295520581462772200292994417229706669502829624153665651428027285982100371963350262692335366318758102524702566438208332024220744010092946340231919844611976199202216238794581599318021133479607244038440201065352999038975101982492279675167679019619121372818107920184499440404979685001731630983898071079016214862694866153710151408622861516710601489016542229619524014541511932273130210133166532965063613201217771739674457238011955709835093999660114915819360330304101024137929309444887009112908973465464560085019872728754979900821160020816748285007843379676887546230073169038011037958500611189694827797450005369952013356977280051140784047094235800432667434267764385004864599869144155700042103965488439512100346807404164951449003946184038740406980031726601783625871700228251944441373657002411793928168652030025314879620489552900260459488175352100002,
  703340924574826410491015631190180291304714421644388483334046201316247696893160452761853527208403804437226164257374763043492816431311489550426405747679997643604181725123967513472040102303470524689230381256077164932211803715120617399062004036178393744762639290352061908751753016103423337513782568243033258549077135051390322802427835644835703129704348799490202030307738375656498520293114521399462457702830775882500832717027296749149124798810262790399612284590302525572107956050424024228244974587125490231982745199222463902216751121634774323021137529260842927750201096389038879980201984796197740601709019635670178091300350184614330075444312001732400985914845610016219838270331061290151439578320159562501490868061843573480014552141559812115170133225004935173214601218079342294449129011971153091213221890114989643270739430401024473096033101843009114350096558754840085078370307621381600821383382626397407007851369284499304720073195682769558642200611272073967842705005372297225275378120051146879698776700100432810500844916468004867585936125753230042109380481171121700346889273875227134003947122299781306270031727147001746760400228244559973321332002411497212026426530025309342543385433400260386469548242047002,
  748249408629658550491079188376412534004715305830977083287046213403743547049230452924186774380770604439367171168910794043520538379465728540426758016942318848404186116651641646524040107672365253816820381320422146543598003715876284247981942036187086353636802650352159809166696263303424416549864222135033270182250378302320322925046258388818703130967290149030555030320442496519860170293239257665438341102831970607864493995027307904881464597060262891883258380052202526470901790813661024235989088412710490232047607847183146402217278804704291725021141695366012146390201128279865113159801987160779356296448019652634733600960710184731967689182192301733188480123635335016224920919052263360151471162992761748801492755014535334657014562962017410295280133284457646415174701218391742969000497011986819181611343030115064446554667695601024812321670397849009115807016133041630085137442353804651100821608685079973776007859419342089538740073222499507084010100611354894214377631005374652444237837180051152994806736087100432953871778274420004870575190911502700042114795442209226700346971049415916490003948058123722628560031727688704165064900228237153417546648002411200805184692850025303816699925309500260313627080322035002,
  795957622524695080491146627083733548904716242893207653084046226198761888565430453095816398437521404441628080716896358043549777840270931710427129125539631321304190737510570546685040113314883502954710381387965706936383303716668568496358613036196189308375223790352262208845080244803425543830584575559033282321074290426520323052842097072283103132281991248421573030333651547653196910293368797467780388902833209867799485906027319462719896622130262996900160816341402527399885859803318024243983848084387920232114490634533481502217822279484567544021145981084064175080201161047636613649301989587523017340454019670024802156229070184852414429911016701733993834742508983016230112765133283770151503388600051429701494678017534011013014573976399153109510133344905819967281801218709007953192578011100271091601567450105140240387561160401025155647676845220009117279874609642240085197093357897944900821835941012437653007867530176212192910073249488941468182200611438156853277364005377017686200144540051159129373665704000433097546557157821004873567617590664810042120210344974143800347052730603150223003948991513823863560031728226902665538200228229724926178201002410904707716249550025298302057173539400260240960134902800002,
  846635879332839000491218178493767873604717235913139177710046239741645522099600453277260695810328704444015426029992181043580615580463457170427520052382659345604195599327996736834040119244553778144230381458861970295770903717499188604233175036205721352296483220352369307668527928203426721438942320225033294986749756511060323186025979054173703133650493389673838030347384815163443640293503318322338628202834495252939041781027331436529174841680263105567785606045302528360026651973072024252236969180796970232183453265140128702218381993322329870021150389656946981450201194715050067672201992077961737055051019687850359400840680184975732739673228401734817425108061950016235415971120347950151536267060412327101496637697714848066014585187843651963870133406364370595992001219031204290922667011101883113409064680105217036049854660201025503115844599863009118768815382008050085257327835185207300822065163311595267007875702114283805250073276651791266416000611521863168940033005379392967038417300051165283402072504400433241524668606309004876563200259620970042125625162981316700347134317254966538003949922473355369920031728761609000817000228222274650530052002410608919689143470025292798582316203500260168468078359121002,
  900464594515926390491294087206639324404718288147802817082046254074976308077440453469066071217811804446536086262988024043613136542353151700427931825753545112204110071430290319894039125475552755997370381533272251006153103718369941039487871036215702056004650740352481314090131054003427951544650017622033308201333699698780323324816772928045403135074915185230944030361662291622042270293643004026318584002835828408220925546027343840630162510830263218007317176855002529352320051828849024260756392387310040232254557110856997302218958405508869614021154924409165456140201229305352113995201994633663782978720019706121598083845050185101986342502550901735659633800324877016240832738628304040151569810492850819201498634691731705862014596599534598410490133468848408814071901219358399822655290011103518270569171990105294844927716998001025854768304365146009120273982819725440085318150325700368300822296364918114584007883935484580984550073303988775725443600611606014444266914005381778302548928620051171456894277447400433385805597396014004879561923022124940042131039869841282300347215809191302072003950851005598223230031729292834891441000228214802741105990002410313441166718500025287306242660589500260096150280111470002,
  957634869804843630491374611999402840404719403038868749065046269243696021748860453671808519115764304449197304394923288043647430053302625480428365525720166944004110609523324868425039132022735340497830381611365377993570303719282703698289294036226151852620978110352598445488691437703429236407608719861033321987772306639450323469441898039801703136557455374883194030376504700825419210293788044870562132402837211034654670890027356689814104535840263334343770074751502530377792185725924024269550289695404230232327865255375844402219551987579123166021159588749745322100201264842351738298801997256233427240550019724848932408340580185231240268492317001736520850769630680016246365308975537580151604031220001742501410066964615108657013608214701324056030133532373243057524501219690663193231443011105176853112079450105373678513799369401026210647527300318009121795522272516190085379565394286290600822529558825539994007892230616237868770073331500614773792700611690611960642711005384173708447939280051177649852415863300433530388826055784004882563769989557300042136454439259654600347297206233982989003951777113844067340031729820592025873100228207309347603769002410018272207661110025281825005634692400260024006112607733002,
  101834910993472460481460026626185208104720584222832296754046285295233546344060453886095180954227704452006705915311234043683590045393055160428822286664795042204111175554445828026039138901666066993440381693318033194790403720239439470177816036237092074460922240352720928537046631303430578381516347822033336369935490002470323620137645138675703138100395730102087030391933523383589300293938637858660308102838644891143465706027369999357323143660263454706103839157302531437500291128491024278627070762398230232403442539155669202220163223617733748021164386174240374110201301350432925205501999947311711573968019744043002459469560185363560878271371301737401473465465235016252015963827982050151638941771173265301410274321758772410013620036619366226750133596954381881808701220028063859735692011106859154138312870105453548407986840701026570796326933095009123333580074236770085441577630653369700822764758080306062007900587839243569340073359188029012116000611775656997915888005386579200371532600051183862278437821700433675273834883504004885568725281176250042141868845037083600347378508206716149003952700801394967480031730344892060523300228199794618919347002409723412866046800025276354838786700300259952034951305057002,
  108282167403366970481550620662264393404721835541746437383046302279638726970870454112565982003650004454972318441410200043721715285756100270429303299932321983704111770931922513434039146128651911661330381779315104746202203721242199953692990036248544991213514930352848999585017635703431979917614763227033351372652632137970323777149508544137603139706104059020159030407971023163240390294094986933106798602840131796362283073027383785036348719300263579227341134905302532532533609416701024287995389435436950232481355605455645702220792610572242567021169320266783928930201338854567572887001910270857722723080018763714678712983920185499015887893825201738301906967329496016257787025852339610151674554885431282201410485607284175140013632068611039440930133662607536177529701220370672099421326011108565469844574790105534466318152975601026935257861076412009124888303546874850085504191649437852600823001975781750076007909007484439591300073387051739703505900611861150834379072005388994793875450430051190094174108504300433820460101962409004888576773024366390042147283061069232800347459714935080182003953622071563261200031730865746619769000228192258703151077002409428863191387130025270895709784492700259880236174651859002,
  115127956355907140481646700394432954604723161054529161615046320249723223809200454351895351693091104458102592311493346043761909618073316280429809816603536957704112397132868163563039153720776567153580381869550055509612603722293129328654674036260533849682244440352982905057535978103433443568580644679033367021749655462610323940732530223727503141377037315380855030424640274612445420294257303208706884102841673630693901627027398063143497968880263708044689227824602533664014302838497024297664150443679040232561672947496762302221440658573562887021174394702185381180201377380328675211001910554174691005754018783875066625689210185637674394148772401739222564117640032016263680859378622690151710883514723741101410700888903745944013644314046012729460133729348621405674901220718559017693987011110296099549736110105616444060917585901027304075633749260009126459841004544760085567412090259820700823241225082123681007917489883517232670073415092468763790700611947094746749572005391420504434933690051196345541008581100433965947103177334004891587897354888310042152697061346738300347540826246516678003954540927671416320031731383167295978000228184701747603878002409134623228673280025265447586415134000259808609164069972002,
  122396314877627840481748589760112630304724565048875591811046339261208719856620454604794031592892404461406422201170373043804282215767264120421034315039915424904013055706500085644039161695936247659900381964225307576983603723394468391459298036273082915148861500353122901868527880303434971992565458636033383344087466703980324111151656189911103143115744814888693030441965190994964080294425805213462680002843272338224504735027412850502911894500263841299664893069402534833098396218950024307642516262740790232644464956777889402222107891263894077021179613248072775890201416953903776489901910844857685100119018804535511309100150185779606900296268601740163865656695879016269699871072132860151747940827045350901410920235376366385013656776341892858220133797193759852594001221071796556154094011112051345720978800105699493562407577901027677293497101717009128048341757480880085631243617780850900823482519186603255007926035369014965890073443310938751816900612033490010149859005393856347444562650051202616380534586100434111734312230931004894602082417123780042158110819955177100347621841970321354003955457373051882800031731897165649534700228177123898793389002408840693018422690025260010436584374600259737153303936801002,
  130112693588001500481856631337814725704726052053806275692046359372882855917700454872010975371755204464893169812004466043848947847432231330421090468072055767604013748277549165141039170072877089240490382063552643421873303724548558759996817036286217514423814420353269257851154076303436567957390000068033400367601823708610324288682105637023003144924871562494461030459970553562919840294600719137161820502844929928800592430027428164487066374410263979138222847229702536040976744052308024317939914155522780232729803972572466602222794846132234289021184979767082321620201457602108703940401911143086312231281018825707602287645930185924885342235808401741126240359738856016275846510614984770151785740209643055901411143716521569142013669458964813480350133866159282904662101221430457500697697011113831514000088530105783626859020858701028054955653343777009129653956116027970085695690921761335100823725871353299192007934644274315793370073471707872859723500612120337898088168005396302338218101110051208906693899298000434257821200659822004897619312364317140042163524311075021600347702761937635195003956371411046950250031732407753208864400228169525302450142002408547072596722880025254584228316153100259665867981567831002,
  138304037697053580481971187391675524304727626852884662060046380646763283944310455154335345266753304468572687683976347043896027155077497930421149585583348758504014476549825355149039178871234214049560382167753624392579103725757847255056167036299964080649475740353422252205026236503438234344899176280033418121344675233710324473609753253859903146807161694268287030478682041697569170294782279087903829802846648480148993179027444023033768530850264121710887798205302537288876023621365024328566043393681740232817764332632845902223502074857656638021190498219095802720201499352401583183901911449044261973106018847403178342839920186073583115114076501742110125176138101016282123271397306580151824295272262818301411371403233900732013682365430030299300133936261733343069101221794615489677247011115636913229901120105868856098193491401028437106656678771009131276835394631310085760758717117557100823971294893264481007943316933644594660073500283994903235200612207639682439270005398758491988343120051215216482132127100434404207237850854004900639571358821860042168937508981604800347783585981435736003957283045008606660031732914941470456800228161906103523621002408253761995276130025249168929752100900259594752587199006002,
  146998872521297750482092640972936016204729294498138415793046403148270248866370455452598609819598704472455344185722125043945646945781688990421211819620116676704015242309946036632039188111572529851390382277060027269251003727024890465346009036314350199924717200353582175961042505903439974155482895320033436635527025741640324666231525160396103148765462037615564030498126264048651230294970727356804048502848430140061801984027460444663652322820264269172890208094202538578059754796002024339530882664030760232908422425129340702224230143660512180021196172663526833680201542232897141962701911762919392091558018869634332444735640186225775100377982001743115965370723901016288532691218212970151863619850438020001411603367497449050013695499302522241520134007517867658461301222164345022121131011117467855480897620105955193539169785701028823791415240116009132917131915822650085826451743978343100824218803170501721007952053682065442050073529040029311900200612295396633425121005401224823906961810051221545746079503800434550891891057221004903662843572339970042174350388045069400347864313936528203003958192278298395860031733418741898895600228154266446186405002407960761241442930025243764509151039400259523806513969435002,
  156227393763181640482221397081383870904731060324720982291046426946408129298690455767676747861384904476552049738998900043997940497384112510421277329797365102804016047431234439451039197815429339251310382391714299636862803728352359503542516036329404659822065330353749332464509037303441790512769137225033455941563379073520324866855808932936303150802725793719766030518330790703841740295166314691122950602850277128648130595027477448498187236900264421684305867780002539909829347186435024350844697664323470233001856741852176102224979633661730924021202007261656949900201586272381307597701912084903816042047018892413416772131220186381537693280008601744144214667302497016295077352996685150151903728008820015001411839682400537796013708864197598725850134079944658385891601222539721466013118011119324656077953590106042651553775587801029215055193032555009134574999014204240085892774767741442600824468409601969354007960854855478900370073557976701119350500612383610019595721005403701349044359990051227894486405264700434697874625414546004906689113186158380042179762922730327500347944945639536857003959099114287276750031733919165926883800228146606473838227002407668070358286060025238370934888494900259453029157904090002,
  166021562812139040482357883889930497904732929966351632586046452113956388475410456100492563964190604480874284336438968043105304787886703310411346283664048519904016893877795617663039208005358836093470382511970034855647103729743044961058078036345157499871272790353924037877237888703443686668495491664033476072117816637130325075802878196286303152922016346210549030539324186420702120295369300576075220402852191740654602730027495054278214272290264579410199383693602541285525175337427024362518048892926960233098147932704768102225751141250392801021208006279022528690201631500326103642501912415193992149551018915753047822939940186540948830842336701745195335394380297016301759885492471330151944634044551267201412080422150589220013722463781513056660134153559296460009001222920821066631850011121207633627240320106131242627194649401029610943611877074009136250591040431130085959732579129566700824720127657586701007969720790619309870073587094735953535500612472281107809983005406188082389523040051234262703591049200434845154903957021004909718364391389030042185175087597006200348025480928896198003960003556355485360031734416224955272900228138926329110022002407375689364613060025232988175456210200259382419917896723002,
  176415207338933800482502554035659054604734909371574137195046478727670408823480456452018120826460704485434126414387127043111111628611230860411418857085405579104017783708777791046039218704978569685200382638092467441873103731199862069524065036361640064085927550354106621699336799603445666007565666274033497061151767620370325293405332277198403155126511200179986030561136044954495530295579953525580146702854176347856578649027513282383023766860264742520771679836402542706527682666411024374561799637000210233197378861517422802226545278459744014021214174087853551770201677946904851305301912753990814500324018939666111616152860186704088020286523601746269798633126428016308582964037125720151986352490681485501412325662089156431013736301772081980760134228379193590627501223307720954950097011123117110043276810106220979358748017701030011502653359536009137944063365189580086027329994246093600824973970860238036007978651825052044980073616394860026969700612561411163216718005408685038849875840051240650397936692000434992732187633438004912750581389203420042190586857299402100348105919644842255003960905607892394850031734909930353089800228131226153867969002407083618275019270025227616199461643900259311978195692831002,
  187444127469277510482655885980850639104737004820876228139046506868492706707860456823277294319120604490244283145481881043117230039374663160411495234643135515204018719082827198019039229939017960836410382770358989704505903732725856077290962036378885055612598220354297427311432366503447732053297699108033518943973530699840325520008551429490003157419506055801485030583797024516255190295798551382222762502856233401522151792027532153849990041670264911191511620875402544174258514867455024386987124163910900233299634663211273002227362673351839011021220515169565250890201725643007681377701913101499705575535018964165768986894680186871036367935702001747368084367604802016315549311275312870152028898119627272201412575478707127311013750381939311484030134304421984658924901223700499156094833011125053410576137360106311874462676624201030416778660783686009139655572383173900086095571854630453000825229952785775457007987648297170758080073645877800126947800612651001449235637005411192233251140270051247057569560629800435140605935323279004915785748391065710042195998206586422200348186261629403941003961805272296380360031735400293457568500228123506089217497002406791857099930500025222254975627499400259241703395872786002,
  199146207837707850482818385447675388504739222944714112319046536621775048020510457215348457190604004495318122218616888043123676272382159770411575610054220807604019702262744948413039241733368957142320382909059690516708903734324207849567119036396926593584955590354496812538094631703449888472870839500033541757289608673720325755971168157462903159804419020934041030607338884396488110296025381626702410702858365434951011313027551690394778169480265085603351864508302545690181683516372024399805516120704720233405002802342690302228203970410990013021227034117303683660201774620257362402101913457930710656512018989265460976047280187041876608596123701748490681637304939016322661697916498060152072285946675695801412829949660101173013764708106028837230134381705530134189101224099234597867693011127016863838810120106403940768926858701030826818341127458009141385275517058900086164463027313122800825488087063020670007996710546194599520073675544283605755600612741053227538439005413709680337194800051253484218400293000435288775603852608004918823849618963870042201409110301530200348266506726394320003962702552974680980031735887325574178900228115766275507308002406500405845644090025216904472791228400259171594925835048002,
  211561535838497320482990586930423951104741570742488510143046568077512010644290457629367297713433004410066970517704502042130467403210833960411660186609236290204020735620354725073039254115138918536840383054497917136310103735998239701151956036415800272268405700354705150233258899403452139082978305946033565539257919528400326001665555181382003162284794967231591030631794522790959880296260741697053479102860575066090324261027571914432138615550265265942829054083102547255804760632231024413028797146566610233513573133059241002229069830946211277021233735638546316460201824911025451006101913823498594032530018101497891431595780177216693135425135301749638088692003018016329922943497146910152116531233532285101413089153783939996013779284148520972250134460247918511471001224504007119326641011129007801834710820106497191223939296701031241668767003444009143133331221471990086234008404870411800825748387373765968007100583891216542410063705395038370909900612831567758030031005416237394769939120051259930344212522500435437240648010222004921864869305642980042206819543382694400348346654781402081003963597453343265940031736371037976659100228108006852333289002406209264514371530025211564659904555800259101652195779550002,
  224732526406933530483173055289352539804744055602521005161046601330586566282340458066529779851575204410631382238863525042137621371282132040411749177631021405404021821641590555763039267112705827862240383206990861025513103737751421471061136036435543222583921480354922828888469000903454487855693376969033590329542949543640326257478330605936003164864310034415484030657198015866062470296504939317930892602862865000229845072027592849097305860350265452402248464936202548872680104964642024426669125703296510233625437960498592802229960933502846483021240624557758693970201876548448770273001914198422937041719018104132014701372990177395572030292499501750810813148982153016337335917153552980152161649491913836501413353171110495426013794113997179203770134540067468769960601224914897479428097011131026559985347130106591638891440361801031661377378622512009144899898986957840086304212905478697200826010867452773601007101503373594496570063735430792875317200612922546298829681005418775391129156990051266395946573965200435586000520563432004924908791694828400042212229480862314400348426705641782669003964489976826697280031736851441907044000228100227958542529002405918433104278870025206235506032994000259031874618691159002,
  238704053681780480483366387430423222404746685323081926700046636481028282023430458528095251840027704411226602972571627042145157022262248490411842806954630659704022962931814269246039280755775925117790383366870168658243803739587376848704154036456194176103127620355150253264796481703456938924556536219033616169372916305580326523810880871534803167546776287518134030683584658102456640296758292840262031202865238032778529854027614518268017604140265645179853221397502550542406120801163024440739006128986530233740692103663021402230877974283575737021247705819108329820201929566446222424501914582928237977758018106830347403373790177578601094642811601752009372152646957016344903538405442650152207656487186663801413622082883513910013809201637150382770134621182732852594601225331987365731353011133073477158141260106687296953237258301032085991985762191009146685139343944990086375081472968557200826275541087774639007102429535921201310063765652276107509100613013990106252425005421323683912384900051272881024881492400435735054672274009004927955601041458520042217638897867172600348506659156649957003965380126858001940031737328548575700600228092429732237217002405627911609528140025200916980355372400258962261610323245002,
  253523589917964650483571214075438067604749468134523516738046673634284770894420459015389710390546504411854268703546002042153094152479462300411941309429516557904024162221372648916039295075443868013310383534482578341948503741509889961636318036477793531609993430355387845049319632603459496590891648385033643101599011628370326801079902085397203170336146532042192030710991003956689580297021131591573880202867697052124979551027636946587171477950265844479998203168202552266628550096955024455251297920120810233859432959801989602231821667578996365021254984489236922810201983999735941774301914977244013893203018109594351308083780177765869880865601301753234292536560109016352628777950453970152254568242050583701413895971574720746013824551108994494590134703612498166672301225755359403164127011135148895694404300106784178710015830001032515560769737628009148489213866705060086446619076878383600826542422119466428007103362412445954860063796060217581815500613105900434790410005423882287534781910051279385578352614000435884402551914234004931005281611904960042223047769618363100348586515176867505003966267906878535460031737802369161359600228084612310778561002405337700020317260025195609052163353100258892812589181387002,
  269241352037836650483788201627295632404752412722574812980046712901507051235910459529809228079488604412516099848550098042161453555451273780412044931444941056204025422371404723156039310104255525703870383710190584121911403743522912235298549036500383424328116840355636043537078959303462165330359427323033671170756796830240327089717960349767803173236519292141490030739454910881765190297293796237314080202870245042584110043027660159486136690190266050513328763536502554047041798756104024470219225247492930233981760570336636302232792746207980192021262465760092062870202039883852794343201915381604904332491018112425519048592280177957469724180905201754486110987934347016360514658469638440152302401040269209801414174920900084898013840166509348762510134787375790105772101226185097162849886011137253161437464190106882297582141478501032950132285376703009150312285177310620086518830712507736100826811524441509014007104302037499187690063826655347328551400613198278537094339005426451216329001450051285909606025888600436034043606282545004934057817684198640042228456071431222700348666273555040039003967153320337852190031738272914811150500228076775830790698002405047798322920800025190311690860958300258823526976507223002,
  285910456229540680484018054135337968804755528252857468356046754399849506531680451007282355182787404313213905487334826042170257070618343220412153931479654518904026746379910068944039325876273516916440383894373127878173903745630569535554448036524007797916218920355895306339458094103464949799756741471033700423129825177490327390174071723932303176252143957085135030769015583748837510297576639153493337002872885087432510328027684183208738489350266263496964384764402555885390297910903024485656386711447030234107777688360511502233791961968012875021270154951819601850202097255166230539901915796250777028078018115325374719545790178153493775047836401755765374214613407016368564255444112050152351171430447039501414459015836266551013856051991598314620134872491874593075401226621285170997639011139386623760950170106981667110463161701033389755462998849009152154516949588550086591721400970292400827082862000520525007105248445492173150063857438395884195000613291125663955020005429030484545064720051292453106761346900436183977280219488004937113193548250290042233863778715268000348745934145504851003968036370693575210031738740196640633400228068920428164546002404758206499729320025185024865964100300258754404196262364002,
  303587081022248300484261515366008173504758824396684655607046798252785170632060451064597988075525104313949587799219329042179527634386538610412268580676925937804028137388089459715039342427145608187690384087426320768682403747837169605244265036548712479338220780356166110119972735003467854844070589881033730906815568761430327702914302476666903179387426101422052030799713620713377580297870024810985263102875620372035009884027709044835933729880266483654687398529702557783469901061608024501576765342034750234237589847751350002234820086095722684021278057515717871230202156150898497322001916221426835592435018118295474486659200178354037032103450601757072639114572754016376780697982983930152400896229853792601414748342637248638013872211766553448430134958980260646204701227064008917853804011141549635597232440107082300957120472601033834479610397015009154016073913070020086665296189246517300827356448796071434007106201670916736510063888410094281558300613384443064284980005431620106350238790051299016079240912000436334203016623459004940171393506069910042239270866974121200348825496804323389003968917061411266390031739204225733836200228061046238061646002404468924529289080025179748547100115200258685443675112421002,
  322330639290335580484519370984303167204762311358208278682046844590437098259460451125090683207737604314725146714994567042189289333582903800412389163446055054304029598686969665065039359794176092655350384289764195217987303750147209806406950036574545256718251340356448951358485644403470885503795893470033762671793729682310328028422390307234303182646932984436538030831591060570507110298174330171829937402878454187065051687027734772311196341710266711217136903073802559743129317964244024517994738849845130234371305433929803702235877909737813075021286179037254970430202216609143216485301916657383729240741018121337407206954540178559196375639792601758408472947974352016385167169662695960152451592528296496601415042988851154059013888650103133550310135046860702963693001227513354866716910011143742553466014980107184212906353701901034284354414823628009155897121856936900086739560150235915900827632298880677836007107161748344961930063919571174039951500613478231985100114005434220095828913980051305598521968823500436484720256466503004943232401871986220042244677311805435200348904961389272649003969795395964299920031739665013143289500228053153394918044002404179952386341040025174482704007284800258616644842411192002,
  342203959661998020484792450851783520304765999902982925655046893549926617175580451188931860412354404315542684794274283042199567461436044170412515978091545647004031133724324702208039378016400274721820384501819488697877403752565385180261818036601555960294950260356744347144901606803474047022526553642033795769997018014000328367200387234192303186035399234649706030864691431645457530298489945097896585502881389931821531123027761394466631966480266946422008011391202561766271586169910024534925090133351870234509035756301386102236966244432615278021294525239150355740202278668884335789901917104377664578325018124452795059895260178769070601626836301759773453511808511016393726909377911110152503277692039827401415343043337250418013905371329057717700135136153204533246501227969410463015065011145965737503086960107287416865316991001034739429944979670009157797827633964210086814518382808984400827910426359793571007108128712428898030063950922367155361200613572493671501480005436830466982486840051312200433272063900436635528438810037004946296202972862590042250083088900824600348984327759836787003970671377833733600031740122569890061700228045242032448063002403891290041859110025169227306534379000258548007130184904002,
  363273477832381270485081631447192868604769901388018366365046945275739296564920451256301934597296804316404412338877010042210388576196304160412649337471169817904032746111906351967039397134662190965200384724044460594947103755096596837500880036629796546593645650357052836003433562903477344854829555214033830255384481740400328719769324873404803189557732725298808030899059802266440410298817272772270859202884431117644832454027788941049841483350267189514256568128602563854855581140847024552383018048765160234650895122418838602238085922602481484021303101984521981390202342370015459649301917562670519487821018127643294189583360178983760456288932101761168169317155364016402463212204071900152555969367775145501415648596283143527013922379831542117800135226878019261788401228432264143446263011148219551489225540107391926864894397901035199756653007051009159718359164457080086890176011858722700828190845391801051007109102597900260140063982464406090576900613667229366657054005439451233729240600051318821811300785100436786627000820449004949362781148310570042255488174045780800349063595777198562003971545010508181700031740576906963798100228037312283648117002403602937463089510025163982324640189300258479529973116631002,
  385609438307227680485387838416045686204774027793395941030046999920109506374860451327390774365533204317312652753307429042221780562516247410412789569684206400804034439632997291030039417191695703011810384956911743511799303757745960691925928036659321185939400960357374978748570793103480784674412234254033866184017476761860329086669902850528203193219020646915526030934742832868717520299156730133743118502887581371434877236027817442751553755020267440746309476833802566010897565895092024570384148448536120234797000913903050202239237798057246469021311915280100294870202407753359566493701918032529959152772018130910595358201910179203368671243292801762593219769103972016411379430271794310152609685486638858201415959739222162191013939680058004177370135319055654627737101228902005345182669011150504362879260440107497757060519209001035665385376485237009161658885440186840086966538188351931600828473570188001600007110083439570133380064014198023765376200613762440311783707005442082409904234050051325462654028746300436938015377784944004952432120750904950042260892543119599700349142765304231008003972416297483692620031741028035322756200228029364280800481002403314894613587900025158747728393062200258411212808530739002,
  409286107130040130485712049255860494904778391755527862543046105764342448388760441402398183332008704318269848163901457042233772695717201170412937018791190801004036218250300738696039438232209103452590385200915230399771403760518816550944468036690186353438289040357711359373918209803484372382593157487033903614138367772000329468463201114946903197024535783291980030971788829779856600299508748324783066702890844439274053873027846931234048267180267700378280781239002568236472781141890024588944545494709400234947473664160878702240422746508983701021320971279510357820202474860689119631701918514229554252115018134256424610867490179427999999207844401764049215349358045016420478973653197290152664444268280450701416276565050934755013957276516773590410135412706874355174801229378724515137971011152820542831290190107604921732996069001036136367340430293009163619576528319370087043610089380007300828758615012604126007111071272328671440064046123953546662400613858127746129174005444724009259188110051332122959253745800437089693003127070004955504206146394800042266296172095296900349221836205488980003973285242263621960031741475965893844400228021398155477051002403027161453257610025153523487970446800258343055076377506002,
  434381996174390470486055296144053064104783006602142352445046111861464886789130441481534405226726704319278565308729050042246395709073229760413092045566571618104038086114181103527039460302973381683780385456570998977146003763420737576964147036722450923559061210358062585975119023603488114117087436572033942606252053991320329865731416948188603110097974299733281029101024780073784510289873773153398392002894224190157995357027877439160389020120267968678193649203402570533717076902986024608080723253547010235102437137939585502241641666098292156021330276286623437790202543734746578881501919008048901363484018137682543952076900179657761250286984601765536777801567171016429765311260332710152720264224980779501416599168047160077013975173777810231150135507852701110398001229862513119298325011155168466236055500107713435289326168401036612754159297663009165600603575341820087121396918209481000829045994182712976007112066131144794790064078242929238607900613954292906954056005447376045462376300051338802724598054300437241659308422310004958579021713912340042271699037039527500349300808347200794003974151848358510360031741920709572661700228013414038543093002402739737938386940025148309573658430000258275056219217823002,
  460980099612857840486418668915855496304787886389081579398046118301177070649920441565020653923693604320341501710892534042259681864249649480413255028285728645804040047571270711570039483452914302409930385724418274942820703766457540134248729036756176268452140210358429291708114848803492016261117658297033983223210416718490321027907862748412703010509030593348062029105017151219510400281025226556928546802797724619837238532027909000224491502620268245922208410660402572904828586633473024627809657577939190235262018412758186702242895477932352657021339836758979420450202614419265320283501919514273745612468018141190752033930380179892761328843660701767056540319418311016439241971755852340152777164165821186301416927643887574310013993376473429039560135604514419220898301230353463652118233011157548511746471810107823312263535548301037094597838988182009167602138810981680087199903904332096200829335722068314605007113068051065886530064110555685072795900614050937029513988005450038532098515750051345501947508860600437393913723413654004961656551846182220042277101114112494300349379681597259755003975016119285960530031742362277223536200228005412060160911002402452624021685870025143105955851283400258207215682207998002,
  489168143205490460486803318199996179504793045939003618584046125102226999257040441653089669588274704321461492148429309042273665025039215370413426363547868903204042107173458322337039507733208455682650386005020435554131903769635294036346278036791426360147831870358812135784041467703496085452861991644033102553029978883690311070913157858367603010936209394360041029109161354846300680281064470215469122002710134985477288029026941649182045103690268532394856804620702575352069444876056024648148798284241630235426347962256636502244185126634994475021349659311281399650202686958990971154301920033196105604972018144782884856308750171013311127096560601668609147737521157016448912544476042890152835163200903833301417262089666115055013101188929903187260125702713577416735501230851669645979884011159961061807316250107934567317506271401037581950778857389009169624355552125370087279136303514603000829627813092263344007114077067217487130064143062955698362300614148061347041822005452711482668664570051352220625258707700437546455676027167004964736780949726870042282502379567871500349458455825215951003975878058570516650031742800679679564600227997392349793634002402165819652323260025137912605051011400258139532913084692002,
  519038847083700780487210458720263239704798500882084110288046132284361083091110441745986302190909804322641515434624429042288380734545403560413606467136382149104044269687275791146039533197383443755540386298966055199060203772960333209774412036828267876780880570359211804502104508803410032859525142891032106959533154972640311115654050093385803011380118924342491029113462937275309630281105157563041729202710510415620943145026975421882313934900268828389282594213902577877767549510921024669116081630364660235595559741504896102245511580909021509021359750718963855910202761399703168094001920565114400681635018148460816479193690171037892428253460401670195256725125532016458780680366379630152894280745623862601417602603912284725013103071701384642710125802471991594633201231357225680717315011162406502685072580108047215241810629201038074865773728112009171667428206728270087359099397848184800829922281730265917007115093214802986770064175765476172133600614245667090729937005455394910590116690051358958754945938700437699284592387477004967819693445072600042287902809752705900349537130902267907003976737669743543180031743235927742653100227989355036208804002401879324775962980025132729491866890700258072007362149923002,
  550690202740109320487641372771480038204710426769881795639045139868375839386780441843968123692783404323884701523159437042303866295968748190413795774918304605304046540103699911161039559901422376639610386606869994655899203776439266790234414036866770312993813090359629012321826456303410475286612852289032111548873595240440311162197995426819403011841389430687267029117927639017285040281147339537740971902710899192436815277026101035530083959890259134207488712596802580484318369684665024690729943102051750235769791274314655302246875834111049974021370117921835840000202837788237745574301921110333580533193018152226459747319290171063031577790722701671815535982706558016468850092929747060152954536524993912901417949286609715073013104986444167225790125903811747604822901231870227393205543011164885224497934110108161270956548409801038573396015906039009173731532277722830087439798495797456700830219142510864946007116116529103316390064208663981948758800614343755489712571005458088829196302220051365716333495147800437852399896833196004970905273766951700042293302381107332400349615706701254180003977594956343104740031743668032183557200227981300247482098002401593139334799690025127556587015030100258004638482256170002,
  584225764971169850488097413878846417904711036376502627253045147876172187668410441947306070269316604325194338953171922042320160857158999130413994743784609360704048923648387168623039587903872855103430386929374535799160603780078990668233660036907006094677011220351006450297610463003310936572878039319032116328365929311260311210614970063288703012320673950576592029122561401273540850281191068797438859602711301770276423899026104648757306997170259450160591105815602583174186800524898024713009330514434010235949183742597140002248278904839112632021380768027800597870202916172509362734201921669165257215702018156081767027341650171088740341921544601673470666441453028016479124559187455900153015950578021427801418302239214934011013106933647163394150126006755204060723101232390771487014286011167397621245962800108276749512187032101039077595097198226009175816844366918760087521238932249102000830518410015421244007117147045476635970064241759208870831200614442327771048220005460793251736686760051372493357657619100438005801011932347004973993506364504080042298701070165276100349694183096645195003978449921913848030031744097003741924800227973228111000954002401307263267595420025122393861317913600257937425728791681002,
  619754959557659710488580010650047109104711680739917894563045156330812472166050442056285116000622604326573882649980149042337305499103018490414203852633115604904051425792359882952039617265960627090300387267150563579342203783886699501640406036949050698209310390351051905062657160403311417494285922314032121305606453737030311260977560765389703012818649100271893029127370372644458850281236399775198660802711718618265131897026108385802893881520259776569079444000602585949909065779059024735973717436142590236133882077811853202249721837533294685021391708316653129540202996601534576514001922241927839606882018160028730957726990171115030715629640501675161341465699369016489607920653225090153078543262139418201418661564676337295013108913805894144900126111324995171718801232918955742127452011169944090841408000108393666090404753101039587517010935505009177923542178901620087603426068560235900830820098878095464007118184799358023090064275051893159045500614541385159702247005463508191376678600051379289824011791500438159487358497830004977084375701478850042304098853553165300349772559964535029003979302570006885220031744522853126338100227965138753468205002401021696509714160025117241285703962000257870368559665729002,
  657393407507993950489090670829994415604712361791214847291045165256580343974870442171204979523422404328026962097927765042355343328525665050414423603395883612904054052263162951024039648051708110791610387620898797173350503787869899213331811036992982774368639430351099346106279954603311918857570388972032126488483551990490311313361058278731903013336015890517263029132360916051800980281283388736387566902712150220759681033026112250722842145020251011376308487446102488814094669529435024759643116943331810236324035054551210202251205703089663937021402946243957150520203079125455368830701922828946670342855018164069385211543950171141914926725960001676888267058334755016500304084320255040153142335257691112301419027367453366129013110927422565776650126217544033598984001233454879024727599011172525035139181420108512036004936796201040103216153997066009180051804524924210087686365292606269700831124223785828069007119229826259157650064308542771402297200614640928878529378005466233661197530960051386105728963699900438313458355602700004980177866256429050042309495707990628300349850837182632973003980152904179674290031744945591014355300227957032300905630002400736438993157250025112098831207079900257803466435294049002,
  697263266731531530489630985568565065804713081565951639811045174679043642142700442292380865208237404329557389902546795042374319574788718520414654522113042601404056809056511217508039680328057985490720387991351072277335203792036419992795688036103888427708857990341148857294694604203312441501407685555032131885188484000040311367843553956877803013873500568882190029137539615881322550281332093837537677602712597077819178300026116247699809256620251046208265499635302491769428398176453024784038095711218490236519795386307706302252731599487770283021414489445003006290203163795563136200101923430554165277911018168205805272368610171169405439970098601678652162069231322016511217023661562770153207347572469095301419399753535892959013112975006147383090126325435513334686201233998641297046642011175140859967492560108631874702424500401040624747328838367009182201811326791600087770062018828462500831430799478318650007120282161768006080064342232580547824200614740960148256414005468969674196252430051392941068747437900438467713420595531004983273962522913810042314891610290196800349929014630255642003981000927995905570031745365228052552300227948908878657645002400451490646598630025106966468966219600257736718818584415002,
  739493592052979280481020263391220330804613842209655950247045184625120419395420442420144240496975404331169170760000040042394281691280866290414897160055079804604059702448448302731039714165002059137400388379271676588197903796394429821232368036108684059724285500341200525910549265903312986297633090109032137504226557746560311424506039690695603014431855489889984029142913285352337640281382575187005924802713059705689905955026120381046871270200251082187803623908602494818672373895045024809179788450812080236721319823470507702254300652431987686021426345738848058300203250664323149841301924047089955507812018172440109223493190171197514961257249001680453758406725352016522350779643702130153273601546309403501419778830463816660013115057072449079440126435022912604412801234550343627281849011177791975158639070108753197763267279701041152165745522239009184373743620744030087854521688281105900831739840748004032007121341841548503150064376122057891334700614841480187464965005471716243285515510051399795839425613600438622251969115700004986372649009687040042320286537357210300350007092188318501003981846645025387200031745781774856571300227940768611394749002400166851395418600025101844170224935400257670125174922260002,
  784220714525420400481080738753080262704614645983604907693045195123148265106110442554843651111474904332866510852570821042415279461500214930415152094895705453204062739008038582332039749635715630034230388785458740600042003710095244854044627035113694070164650810341254442786978679903313554152502079073032143354428695872170311483432511250077203015011860013806092029148488974121102430281434894907485176702713538637304339921026124655211387076590251119350996383245402497964668160810114024835089912698757060236928769253599949802255914016006984040021438523132441149700203339785399494856501924678901032000594018176774458550651160171226256441871680301682293801252195181016533709461754054950153341118855741240401420164707346869646013117174144200973100126546329996793278901235110088199578553011180478794579959020108876020902477719401041685527023752480009186567783561330420087939749768678268700832051362440035290007122408901340232890064410211941067119500614942490212574249005474473381293569870051406670036889810600438777073415108542004989473910240895720042325680466189706700350085069739327854003982690058843926910031746195242011158700227932611623117175002399882521161738290025096731906330949400257603684972156372002,
  831588641047936100481144711569184221704615495270900302025045206202957085264000442696845575921573304334653827689800397042437365110039470710415419931937496863004065925610614892301039786816697568556150389210745685922625603710571936248656050035118927727746916390341310702446715521403314146007997544786032149444963410648230311544710075149178903015614321434984704029154273976125057160281489117200419994702714034422794769423026129074778971051150251157734995955982002410121033892515196023861790783968317530237142308804028778302257572873347603018021451029824832728720203431213680496898101925326341892876987018181211058958459720171255643082807620901684173049277771482016545297249041819600153409921518692782101420557494884638128013119326751132877870126659380821395587101235677978324079214011183201736164940810109000359970539498201042224887194910660009188784114425279930088025751754440247300832365379452253739007123483376958107200064444502968038197100615043991437824031005477241100964157480051413563656861051000438932177170840734004992577730756270950042331073373878326600350162947167372738003983531173033224540031746605640070213900227924438037158401002399598499864453820025091629648735713400257537397680584787002,
  881749475344829410481212379049434678904616392582853724988045217895945506718910442846535323343293604336535760415748732042460593418693068500415701305392617858404069269451605460303039825787916353814230389656002733414108803711070443971037642035124394688226289790341369403246442018303314762843184675448032155785349201093270311608429059149882403016240075940699915029160275837675183520281545308412382105502714547630021922366026133644477576964560251197378063749079302410455869165069025023889305331269720030237362107946840353502259278437323451808021463874211472274090203525005304645037701925989774693384627018185752161200790090171285688339158512301686092274867220795016557118391172865770153480031899253644201420957305386797672013121515430054780780126774199734988314701236254118447039083011185961221944491800109126230954268287401042770302704095845009191022920615365580088112533166739571200832681906735165829007124565304292043100064478995877086427000615145985075257616005480019414956428040051420476694890259200439087562646915346004995684095111315030042336465237606205800350240724358116690003984369991180755050031747012979556833400227916247976188583002399314787419269570025086537368993972900257471262772940658002,
  934863861416800610481283949237585729104617340565696994751045230235161080799880443004317971222873304338517180603760348042485021847914951550415996879721005578704072778060964514904039866632962309413420381012213847350765903611591734580700034035130105009981438360341430647526571129503315405675615161127032162385467386463400311674683126521618103016889989601414108029166502365803926820281603537103462024802715078845119009900026138369181696089120251238319601789373102410801281941076444023917657113008228430237588340606274617902261031951238490251021477064888594661380203621217687019543401926669569398609727018190400061925273780171316405924575549901688052264340040709016569177209498595690153551472712494525501421364252793565279013123740724938062680126890811382228359601236838614161008186011188757678078365170109253649977675486501043321830412166422009193284387664260760088200099553546604200833000959291916773007125654719306637280064513691406802613700615248472334704783005482808335844856840051427409146358724700439243229252286938004998792987877493430042341856034648860800350318401198789758003985206516879658620031747417270963356000227908041562218173002399031383738731870025081455038763331400257405279724378346002,
  991101450630736250481359641590625318804618342007633957833045243255384469656190443170619352252211804340603203561074621042510710663865684630416307351028518445204076459318232035095039909439206292235110381061010150120402603612136816037821873035136069170203872760341494541766653409303316075562782447796032169255575390821870311743569394179598003017564959393467084029172961636876370200281663874117735063402715628673051617214026143253916672523990251280600184953492102411157590369827545023946870333268585450237821185268614507902262834689545929203021490610657697199150203719909546233766101927366103938973250018195157104532170600171347809815796549501690053818178811729016581478098139002890153624267029344767801421778452696371023013126003186997484680127009240706874007101237431572215081528011191591534886748600109382633302835090901043879527597785892009195568702238394540088288456489674885500833322552178263661007126751658040841610064548590296076682200615351454423765109005485607876119170000051434361006478581200439399176394276804004100190439364242150032347245742374092700350395977578180408003986040753728631080031747818524751407200227899818916601291002398748288732261170025076382629803828600257339448012459472002,
  105064139367325350471439687588294296804619399846250528000045256993217807162490443345887087053436504342799200166596537042537723071297708330416633448527641376304080321468249114967039954297965097954790381112088211829418803612706739415193929035142298081713984080341561196746612043303316773603629814790032176406320493822260311815188554826857103018265914255194464029179662005472527780281726392655861127802716197738193874744026148303863138805600251324261594057337402411525121681500807023976969858494479380238060825094605157802264687958578741373021504520530109000890203821140931898906301928079764368554720018200025680047802490171379914257246028701692097751259840654016594025525080047770153698438281528171001422200022358749784013128303374773938160127129512954830445301238033100525215884011194463226882010700109513197330753237401044443451959470276009197876052141795750088377609576825917000833646700502546852007127856156607633720064583693284087758200615454932547791048005488418048184263830051441332270293267700439555403478587899004100501829701004860032352634338241873000350473453386627506003986872705331813190031748216751351950500227891580160039273002398465502306185670025071320113977499000257273767117139190002,
  111367285865516150471524331374265736904620517176300635677045271487177435261430443530591667168433404345110809266187666042566125352538387070416975936063454682004084373137556513437039100130467385760590371165551410547621803613302600678394295035148803110427051700341630727714015912803317500940113113532032183848754063367290311889645003229783103018993816177517731029186612113548882890281791168349879722102716786684921358664026153524361574975250251369346849826746502411904212432170622023100798123457201660228307448034460508202266593097296102300021518803731654466870203924973252621084201928810945026291582018205008228012779700171412733765707528001694184893087140485016606824033285533580153774010266557767201422629080737455570013130641854217967730127251653677219506301238643308184614168011197373192800607330109645358602240762201045013661617638766009200206626319933470088467564443633677000833973419425660599007128968251193688400064619001110294321200615558907909871289005491238864360131240051448322932678004900439711909909319966004100813468260084340032358021799804221600350550828516012242003987702375298681910031748611961165328800227883325412584026002398183024363773370025066267463247952500257208236520752458002,
  118039557671855840471613830430582500504621697257886603565045286777791225943630443725227590290218704347543950650907586042595987012841595950417335613707685280704088623351505064992039105055906571016430371221507656713096003613925542536810622035155596093493356530341703254557607538703318258758820064919032191594346286282580311967046966760539503019749661330076792029193820899887506510281858279340262995002717396178221179231026158920916994338410251415900247771356902412295208755034538023103993070432631020228561246945512403502268551478046081219021533469707412648680204031469304540044101929560048700100962018210107237385244040171446283135069174701696316088029787239016619878241823639940153851007152790120401423065748503800350013133019198774072140127375688733473872201239262305474177765011200321875635147570109779133798788698901045590215116666818009202560614863551210088558326745708719000834302724161022675007130087978059046230064654514514424329600615663381710814113005494070336881789310051455332988340272800439868695088984433004101125353505197510032363408104705109600350628102859750206003988529767243942830031749004164561315500227875054793641527002397900854805263780025061224649679946200257142855708000484002,
  125102041656622740471708456287029373304622943525053350305045302907700708865370443930314550179128604350104838644759442042627380932390222200417713319423776471604093081552107793150039110216535904737170371280069585162658203614576756368222445035162689358137397470341778901987310318803319048292648075714032199655001413667650312047506640344013903020534481224008333029201297609841338060281927806355291480802718026904319728319026164499203759234040251463967393984228502412698466618007757023107284522544049000228822419712558474802270564507344907883021548528126574297290204140693300419029701930327486793971440018215325247459352630171480577441143492101698492195562697489016633192847008279710153929453484539732901423510148065219063013135435989465787860127501644294455879301239890203873027096011203309722666620930109914539743446541101046173171426941939009204938209012493460088649902165681831400834634629974542785007131215373536780720064690234236465339300615768355149130840005496912477899209150051462362431820282300440025758418519414004101437483901749520032368793230680333000350705276312783378003989354884787421380031749393371879162300227866768421975191002397618993527900640025056191645438960800257077624165937195002,
  132576998940411430471808495267198071304624259594816748197045319921768234819690444146398683817278804352799996329662173042660383525244042070418109930806034633704097757616664769262039115623245263855760371341354755013049203615257484219755522035170095741222092350341857799720947096103319870822542599505032208043073538114060312131140325951055003021349343912505247029209051805384439840281999832792818833902718679571328568654026170265070530210380251513595241890278602413114352087835897023110675248880661220229091169370966095502272633626673146448021563988887398425170204252710899295452101931113679498072709018220664848799231170171515632046562455801610071409051086566015646772623555432440154009374187254072501423962403587062575013137892814981560360127629546845600771301240527116069089786011206337185496782240101005159340170352100946762589946921903009207339601159526850088742296413247373300834969152184589937007132350474032664490064726161016654646100615873829421019396005499765299477247730051469411257491459200440183099297304574004101749857916851490032374177155557396700350782348771572210003990177731553959490031749779593427644100227858466415709264002397337440425962610025051168422790781900257012541383955839002,
  140487928586243590471914249273089419504625649276647431571045337867189415985820444374053878470486904355636270436594108042695074905540060150418526366896038693504010266187719301880038121287412895537010371405485857702131303615969020888124592035177828609564773270341940082677910159203320727679298134806032216771382920537400312218068576784220203022195355230326825029217093375476303590282074444804493788702719354909908961137026176224545352094100251564832129967189202413543241600880476023114168093731820930229367704232591131002274760313289116337021579862122270267510204367589236702258001931919055961933405018226128684188631400171551462605748864001610298266329710871015660622425754638890154090794572749938801424422641014621047013140390271761409450127759423190084990601241173155969758094011209404720080699950101019031188237263900947358530505195741009209764984854154200088835515225206166100835306306161958814007133493316024832940064762295595469422600615979805720347921005502628813595580430051476479459560922300440340717123176037004102062474019338700032379559857255403200350859320134087676003990998311173307830031750162839485112200227850148892332179002397056195390795150025046154954101073100256947606853775659002,
  148859634653915300472026036610186912804627116582432363658045356793611095035600444613883141447045604358620846933122540042731539061265491440418963590079630236504010780514069507374038127220926602873080371472590933510938703616712716082186831035185901881032728420342025891180030901503321620245424021793032225853232884920780312308416346306610603023073660073462288029225432546749525590282151731382509255002720053673955537871026182383840880517480251617727820462914802413985522240734733023117765978511434060229652238014570959802276946081059903406021596158202862526530204485396955469939101932744054470735801018231719449596526220171588085069965053001610529882019335777015674747188655813640154173740344511690001424890988095378930013142928964084394110127891300452019234301241828438712614730011212512786759463440101033071243847768700947961053362546811009212214554806422170088929564365508033600835646107329834986007134643936063447110064798638713616855400616086285238638466005505503032148639040051483567032069967400440498611292441247004102375330679787710032384941313784924900350936190299803417003991816627280022070031750543120299540700227841815968699956002396775258310841030025041151211834962000256882820069428679002,
  157718296789156550472144192855029982004628665736937528684045376753255106825170444866520035468353004361761267338855343042769864035937198920419422608067938890204011319871030111714038133436205818328720371542803596899566403617489976670938445035194330046447016480342115371159905775703322549957077269420032235302427299850810312402313142268942803023985443720185978029234079894530429040282231784448950368402720776641299641771026188749359752552580251672333539134476402414441592022830467023121471903728523730229944989971052371702279192481310309496021612887745401817810204606204237119188601933589122624777847018237439895158874770171625515692439961501610766348357554073015689151929271528970154258237603051796301425367574401503525013145509504156878240128025206079666485801242493080676226937011215661850293048200101047281246814292200948570219214018421009214688506890720360089024449625293834200835988571163759090007135802370770354250064835191112024263900616193269165050710005508387966945546980051490673968894550500440656781199893590004102688426370533950032390321503247886900351012959169687826003992632683513358820031750920446088576700227833467761039482002396494629071671710025036157168556629900256818180527246590002,
  167091544528817120472269071767414449304630301188796230340045397801048108673120445132630182698624904365065445801746242042810142118535745010419904475966042918904011885440732109044038139946224600830250371616263271002694403618302269020204322035203128192324330540342208674376944313503323518306064721741032245133288666351530312499893185895061703024931933194781033029243046354202511120282314698947815486902721524614432869301026195327700105213360251728702016033485002414911860186201842023125288951004993260221024618502791708602181501103690104277021630061616042330970204730082833854862001934454717522155426018243292826176815320171663771033575741701611007759218210561015703841747794986500154344312851334691801425852531352570157013148132512201611390128161167848685446401243167199491011003011218852379893347520101061662951548587700949186089190982193009217187038149576910089120176822937279400836333713191590000007136968656838747710064871953531829276800616300758686365962005511283629710062400051497800263745775400440815226238827387004103001759565689320032395700403837443700351089626646196231003993446483517173430031751294827039590400227825104384951879002396214307556017120025031172796928885100256753687725847629002,
  177008535512263180472401046249450263804632027622048628010045419994757767842360445412912840616226004368541686969604689042852470042056818710411041029843301038203912478459424456134038146764535593752510371693115431643164303619151121421384371035212312024487684440342305958641413450303324526841916942431032255360676832089230312601295576390406403025914398675240851029252343232922815930282400572939785639202722298421251362348026202125661245638960251786887527364083002415396747492572874023129220285141629480221055605392056710002183873577059934370021647690936348640340204857106101171227701935341305944714568018249281104131510160171702867966234861301611254210137622114015718821828833795150154431993000264108201426345992238524218013150798616547620770128299213865399055901243850914050165228011222084849257361120101076218127151277600949808724863208339009219710346797443470089216751804086189500836681548993466977007138142831032824940064908926714369957600616408754986970975005514190032080518760051504945910170382200440973945801052382004103315328741159080032401077993837852500351166192633263054003994258030939816630031751666273309726200227816725955415775002395934293643796300025026198069712758300256689341166123695002,
  187500037798671680472540509353815480104633849968259362772045443395135608257070445708102553053596704372198704692680605042896949191058397160411094123193722365903913100219872769312038153905294982537620371773511861235884303620038126615747266035221897892577825270342407388046762225603325577174036279629032266000008352701750312706664460943466703026934154946300793029261982221701664600282489507699820383102723098915821412990026209150249476901590251846945938439921102415896686532941674023133269156233427920221087483333483493602186311570396265238021665787088889735540204987349031079480901936249364547327721018255407647715903040171742823681108853901611505798341170567015734097442659764750154521305374234756201426848092242883166013153508453720924980128439372570088485101244544344520672639011225359736600544310101090948557501681700950438188240938180009222258632224474710089314180441703393700837032094201770455007139324930187443370064946111401174962400616517259248842037005517107185609768990051512110901551239000441132939276908564004103629132374658810032406454251624351300351242657036294041003995067329434034740031752034795025950900227808332586790586002395654587212146760025021232959767090600256625140351227440002,
  198598516499803840472687875343658384804635773419241390175045468066066832331610446018970879880923204376045641594748907042943685818597938110411149848711104943103913752073860821230038161383288492166780371857610912968156703620964944417886678035231902815498376210342513133210520348503326670973921651352032277067276521637080312816149210395148503027992562899188813029271975407856441560282581607817659894602723926979166957287026216408684083454720251908934747767185002416412122041836716023137438901835332950221120276605108424502188816793715730332021684361722946325530205120888285968121401937179380050547218018261675433883635590171783655692169833801611762622770272837015749673946474872310154612277716748913201427358968466180122013156262668536073190128581672740312751001245247612354373555011228677524690320010101105856041347939100951074541776959324009224832095000300230089412468636107270500837385364501082187007140514991207775560064983508333953684800616626272651529056005520035101765132280051519295231107829100441292206055280764004103943168945731500032411829155663028400351319019762158481003995874382656868410031752400402285109200227799924392819798002395375188135455020025016277440048126600256561084786559510002,
  210338224948234600472843580806718425704637803440415463016045494074727448328240446346328208964741604380092089551751872042992791272970653910411208333120908395803914435434799091595038169213958466268260371945577785657068403621933304442087705035242344507828878120342623371524074115203327809977472675500032288579072090567930312929904600756354103029091031079525918029282335287850440300282676981301315293002724783520079549724026223908403480346800251972913132281437502416943511219424717023141732949179513730221154010109156766002191390999019271795021703426760333512750205257802233107216201938131849436689984018268087498915377220171825381842205871401612024784109732856015765556785693592090154704938196098503101427878759949651070013159061914188516840128726143494253901201245960840299108370011232038700879752390101120942392397396000951717848368682778009227430936877788920089511622315011814500837741375628143962007141713051068962420065021118254586423400616735796372139730005522973791928342680051526498891896750500441451745523613101004104257436935764030032417202684510694000351395280719181390003996679194269553020031752763105153970800227791501486634215002395096096285385210025011331483609100800256497173979755809002,
  222755300631907450473008085826360755604639945784836095598045521491749048820450446691025654194645504384348111118755995042104438223467726420401269709067437692203915151780444794781038177413432071259540372037584809699560203622945008935486215035253241407241094870342738287411633457703328995987375854134032300552604703137550313048091000759515003030231017284847364029293074780528076400282775739683631385702725669475951424489026231657071530418770252038941993766575402417491324061653788023146154817445316030221188709387111025602194035981256463084021722994401340977940205398170979807653201939107280149408959018274646939502826530171868020308441368601612292384815480032015781751495241752040154799315411113365701428407607699167425013161906852347818120128872814294088127301246684152409930258011235443757141379520101136209439407285300952368171360222065009230055360796806000089611647433566345800838100143371815608007142919146815765440065058941905114543200616845831585323875005525923267395498520051533721876812207800441611557067923791004104571934828003810032422574816814751100351471439817135905003997481767937419450031753122913669284300227783063980755189002394817311530908590025006395063599833300256433407440674932002,
  235887866137302390473181875212349207604642206507916290309045550391391601682080447053957043540880304388824261947750179042109858096406775310401334115381721828403915902655737984229038185998550670602920372133811744546427503624001935722045612035264612702955191680342858072598714515803330230875575610213032313005725065515920313170874565635464903031414030213260039029304207240758093460282877998132008271402726585813632265412026239662584033808500252107084006484943502418056043698618999023150708120083056340221224400635118798602196753579310410115021743077130792842990205542076409246685901940106190296806512018281356913850644430171911589608243595701612565529142699003015798263700872114250154895438396976267901428945654709416589013164798153251701500129021714949382748301247417674060388855011238893190101211580101151659026275684200953025574544475110009232705570887963080089712549974394812600838461683573031701007144133315562216920065096980027730644800616956379463257726005528883539377016760051540964178586510200441771640072819449004104886661107575320032427945531313064700351547496967235505003998282107329797640031753479837837831600227774611987097835002394538833738331960025001468153266333500256369784681385621002,
  249776135355448180473365459794318423204644591982884821140045580851724631528960447436061001281536204393531614240650711042115551556012638510401401697361125903703916689675758514878038194986900415971850372234446088147384003625106041261518562035276478365273654200342982926390472909203331516585833064242032325956947877955590313298427437312575803032641631164791681029315746473496692460282983875561370362002727533530310320932026247933075394180470252177403666048146702418638166741341358023155396567192841010221261110719747164202199545677003633675021763687724229392460205689602216971030001941129108858145509018288220642796574240171956108604916464501612844323174354957015815099120496825400154993336631105234301429493045988330915013167736495800949260129172875620519139101248161531953883457011242387501072882880101167293012132734400953690122165207016009235381772476356530089814335947634591800838826012124756960007145355594491268160065135233364768713600617067441175628359005531854618997584590051548225789790568300441931993921509548004105201614261495910032433314806833824400351623452082126342003999080216119916690031753833887636475200227766145616974242002394260662771327430024996550725950393800256306305216154338002,
  264462525217605220473559377781048998704647108917011464263045612954817186942010447838323128724003604398481781283819583042121532023088309180401472607061193520303917514528808838559038204396844103979840372339683398831557303626259363827717492035288859176232194520343113055960234745703332855136375538302032339425475552359120313430927951241675203033915435797040061029327706748282895840283093494750474244002728513654418520658026256476925466237200252249967339559157902419238203637157664023160223967959639050221298867194090967102110241420412535197020784839254212966540205840833948089670401942176575894218505018295241410950039100172001596513582891801613128874850120433015832263565536980600155093040039104124201430049928581769863013170722567655158500129326326822142163801248915854135088942011245927196091976340101183113271432168700954361878919136355009238084172085305360089917011390975037000839193144971941494007146586020854438100065173702658694334300617179017889618294005534836517296119040051555506702834398000442092617995820981004105516792778692550032438682622295412400351699305075879592003999876097984810430031754185073012217600227757664981096650002393982798490959130024991642755089188000256242968561432877002,
  279991773240488150473764196188797371104649764368637205899045646786937006626540448261778287934825004310368694311237349041127813557595632900401547003600236261903918378979627798733038214247554348918120372449727630104285003627464026810565123035301776761408173500343248676648583204003334248622639861880032353431222741552910313568560850055391203035237115936766161029340102814178721090283206982461648434302729527246566259965026265302766589124610252324843317056439802419856679033918653023165194233145827570221337698314242205602110536113748057301020806545096760219370205995859035167565901943249142761429517018302422567849459810172048072907156724301613419293995707133015849762942289423220155194579000781724801430616451598454383013173757065329350790129482099426635651301249680770001451303011249512785950501300101199121694043086100955040909958022305009240812977440074110081002058236969549600739563098111473926007147824631971458610065212388652094850900617291110769889979005537829245225723030051562806909967622400442253511676212366004105832195150017210032444048956706272200351775055863983845003100066975660522280021754533403882248600227749170189580584002393705240755712550024986744214214871400256179774235846101002,
  296411061174745330473980512342089365304652565765048206798045682438759316699850448707512993194914704310915987335467416041134410888175407890401625053477208491803919284872740800738038224559048123951000372564791478859662503628722242146564641035315253622928553270343390012273371318903335699220112662850032367994841706852690313711517504277633503036608401449131559029352949915167148780283324469564061180302730575400497541504026274419490810500990252402101864291994002420494132153201023023170311377642482280221377633056128087902110838850196142821020828818937903109440206154766836832594801944347372329648730018309767529138580370172095557722405546901613715692352608403015867603253310993450155297984356240191301431192766235157195013176840694291448210129640224667624369501250456410314754716011253144786231536050101215320185342025300955727280890754139009243568397471591260081012505497670293400739935887592134187007149071465229919510065251292087669564100617403720978570603005540832813653648350051570126403279972700442414674341788354004106147819868263140032449413789164767100351850704363337538003100146119566550920021754878890134004000227740661351948057002393427989421522160024981855076954189200256116721760179789002,
  313770145064798050474208955450549063904655520921234105191045720005585710873590449176667915105046304311491396730955166041141339442988159900401706930903427492903920234135951944074038235352222725203240372685096747526554803630036313882493030035329313173720825090343537295451043747003337209187270925817032383137748551295910313859996140305156403038031082166325797029366263806021212580283446091160614827502731659244076178262026283836257306139940252481815276875816602421151117172741804023175579523080704710221418701132725435502111149837164118258020851674780380980640206317648677107966701945471839203901389018317279777762083990172144071266105577201614018183608257367015885790598820422870155403287412033517601431779025802151073013179974169060621280129800734143502675601251242907212760928011256823717344032220101231710666305285300956421057785442708009246350642320158230081023043533256915500740311529514544864007150326558084911170065290413708219916400617516849675236751005543847233361256150051577465174701794200442576105370314006004106463665428180070032454777098859037700351926250492241293003100225041885354600021755221541625216400227732138577130690002393151044341798340024976975317028081700256053810657368454002,
  332121492043243980474450188265505488304658638059573134192045759587573585822380449670440502484445804312096327131107443041148615381932746770401792818148721691103921228783983923524038246648893215252770372810874720684992303631408641877292986035343979773051863010343690767929663070303338780868626205896032398882150346766830314014202075889614003039507009877378848029380060768657883210283571986718567669102732779940298778952026293562500000038900252564057935819831502421828203618307684023181002900504292710221460933011659155802111469287089136062020875126950466106310206484597885482279401946623129949949156018324962865180767780172193634221289847901614326883426605335015904331178118042020155510519947396655601432375385748916378013183158213306512340129963659820989814501252040394220919698011260550104557781330101248295073601551300957122307171513427009249159923339150560081033672958556762200740690040031121811007151589948058666830065329754256639703300617630498016899322005546872515043981790051584823216004556200442737804138228948004106779730326490140032460138865066872000352001694170390423003100303742986063510021755561368183969700227723601973472786002392874405367455850024972104908251287500255991040452483390002,
  351520424198865390474704908820298529704661925830488508449045801289976625496890441019008772743271004212732251343803832041156255630302342480401882905902613452103922270922271735510038258471831404711500372942366556709752703632841725647318089035359278763401212270343850680934049462503340416697875996304032415251073184123710314174347963355528603041038100381006385029394357628990821350283702300203987062902733938688336256165026303607935390143320252648906364515343002422525976765216839023186585853105100480221504359933192747402111797417552243753020899190104925139840206655709837729829301947801843323826639018332820412606569480172244267653590895001614641909479125704015923231291023508590155619714220545836201432982003690110485013186393559949339400121012903403871201501152849006264151164011264324478038544380101265075359684768700957831096041801495009251996453098710790081044394391170982700741071435346023352007152861672740202520065369314475905281400617744667157988449005549908669311302300051592200518801356400442899770020661673004107096013061902980032465499067155555300352077035318867405003100382223238141260021755898379608757100227715051648734498002392598072346939940024967243824531951400255928410672720683002,
  372025269873871490474973852258392711004665393334122605353045845223396850528480441073692895916280004213400713562780814041164277913939838950401977393651167559903923362750916464283038270844806432823450373079823695018716903634338168360271161035375236508716951930344017295523456408003342119201165861740032432268391176352210314340654040796626103042626335603389361029409171774296450040283837180220140297402735136724604616454026313982570584911400252736439287178714102423245038049736131023192332839022456810221549013928618945802112134451394855665020923879238118960170206831081997494074801949008590505395701018340856112257732840172295993017679277601614963381476248646015942497339331737620155730902975050992301433599039431801049013189680951260889140121029688951081163501153668879678700859011268147372883340960101282053492887302000958547491854648787009254860445389432200081055208451478126800741455731715098996007154141769784956460065409095109065780100617859358250338513005552955706686705610051599597074547432400443062002391443688004107412512135131290032470857684581735400352152273860134376003100460483011375650021756232585668530300227706487710094853002392322045126254140024962392039871239800255865920847389339002,
  393697522763329000475257792753602630704669050143077619092045891504048772150920441131234897245854504214103332725668489041172700795957275300402076490070161881403924506568805666827038283792627010305030373223508279524507803635900680983363670035391880434103885470344190882962218758403343891000466061986032449958856445660730314513348391499968303044273765782840436029424521171108178200283976780149932256602736375323865808258026324696711556054260252826737688800649702423986005490579332023198248434208029760221594927839058671302112480616837673242020949209689243385040207010813958646822401950243995335978867018349073728634395910172348832163799076401615291421199231192015962135828287227190155844119446280595101434226654997964718013193021138966400110121046725933058322901154500152224066319011272019329155901910101299231457513349700959271562536001656009257752115226033230081066115762637693400741842945445836108007155430276914425930065449096899233307500617974572443173194005556013637607656480051607012874540672100443224500623123563004107729226048905290032476214696891269100352227409718025629003100538522675869510021756563996102761300227697910264154857002392046323548985860024957549528362952000255803570507899546002,
  416602009208008410475557545526939725004672906326273639204045940254036214621640441191780109687032904214841806025166677041181543715086628760402180413435263660703925704777907136162038297341185390115890373373693598910669903637532086591427610035409239066995619430344371725103824857003345734817066517538032468348130126466430314692667211855314903045982511723371985029440424383654064860284121258302502342602737655800359427722026335760971612958360252919884876635659102424749514120740519023204337335357578840221642135334676826602112836147602102392020975197149713391010207195007488436896901951508694560139783018357477099814917090172402807344401846101615626152532468781015982153368076998600155959397367920107201434865014657254868013196414884347350220121064017697413716401155342963094997717011275940891922286950101316611253932651800960003376481512117009260671678851026290081077116950593654800742233092897306931007156727231915804390065489320589573210200618090310883090783005559082472425575840051614447909922126800443387264086981151004108046153307988430032481570083719090500352302442817740149003100616342602031710021756892620621491500227689319416940538002391770907456334000024952716264193128500255741359187750888002,
  440807064090788210475873968964802618204676972473977443326045991601642395312670441255481051302760404215617912580119969041190827025732046140402289392049921873103926959887743081352038311517503134262430373530664544375655903639235324840905964035427342079863738380344560114788878228703347653475194081468032487462814417098080314878855088013873003047754767119228554029456900592853540210284270778064095157102738979508966094904026347186280104351180253015966543268437502425536216429896409023210604362911023410221690670934323288002113201283034214677020100185767069332570197383766571440828701952803338071670184018366070138773209610172457941220880062401615967701496252444015100255667534230180146076770978564084301435514284950038111013199862958345141670121081567630409020301156197452933569319011279912611286660640101334194898674447200960743002558638793009263619353738374190081088212644077914600742626190480113364007158032672641615930065529766923294296900618206574714049342005562162221405809120051621902171676529900443550292153041528004108363292419191650032486923824789054600352377373085834324003100693943160568310021757218468905394000227680715273905983002391495796687134010024947892221639673500255679286422520770002,
  466384715766845060476207966843458935304681259724057779655045104568163387846000431322497770273031004216433517273544287041200572039796560660402403664691715369703928274520052045030038326349778747403680373694718085512309903641013456615868500035446220334519243440344756356257431010903349649905756219360032507330485714156460315072165281569335203049592800952514174029473969615889322930284425508053323348302740347846403341075026358983891352983580253115070831295414002426346782817621717023217054464122328490221740570025607978902113576268231302591020102920767077585040197577197454329739601954128589163854132018374856834717411430172514256870401592401616316196279977783015102335257470933100146196275028383151501436174634715703856013203366141665701200121099379157328379501157063763841325578011283935042427232970101351984424521698400961490510108750906009266595358597139360081099403474613742900743022254656331288007159346637009348670065570436643639078000618323365077352112005565252894727606340051629375650632803300443713584190089027004108680641891388260032492275899913794900352452200450214363003100771324722473500021757541550605824100227672097939936351002391220991077884380024943077375071969200255617351749852849002]

/-- Rows from 900 on. -/
def besselRows9 : List Nat := [
  493410880478658290476560490665000051304685779789525479309045110263557904612420431392998205977126404217290574764955833041210801070359330960402523481077925892903929651413646161410038341867437250662080373866163765014700203642869668852412402035465905928063237170344960765576186581603351727150215324585032527979728864468620315272860024541732703051498959966101228029491651926371053370284585622280943594302741762252454863374026371165393829188860253217288399660145002427181902057663725023223692716200710530221791868885418823602113961354171078357020105726394381224430197775408691465878401955485124784073396018383841254450185780172571777792846402501616671767275810722015104454800033911970146317944785866259401436846235120247915013206925224884993780121117455742852993501157942039391499585011288008745632361400101369981880605590300962245968949232510009269599913375122870081110690076519154700743421301939453573007160669163001087220065611330493874012100618440683111632913005568354502484098450051636868337464580900443877139565681207004108998200235528370032497626288994571100352526924840129016003100848487659020940021757861875344879400227663467519350889002390946490462772620024938271698950491600255555554709445572002,
  521965566728758820476932542110195274304690544987419430994045116261218175887030431467158566874600104218191133684666514041221537477282595990402649102351136139903931093429471654926038358101181771830710374045324212929468003644807279548033488035486432240545809270345173671081085424803353888364598031321032549440172570635800315481210823952816103053475671214068405029509968675107617130284751300314269807802743224211234025968026383742719569325650253322712491682202002428042281773527701023230524329524703860221844604700891615302114356797843567032020108604366689680900197978511191342725801956873635792822662018393027543750963540172630527917846856801617034547112815424015106614999749683550146441816044638951001437529259684132419013210541008555459080121135800891438469301158832424641304943011292134286336816740101388189332500293900963009449375589541009272633239262496100081122073086910257800743823348894332532007162000288663143470065652449217279798300618558529952841706005571467054682279210051644380222690727800444040957646162730004109315965964653320032502974972021124000352601546186162185003100925432341754920021758179452715455400227654824115905901002390672294673700130024933475167826439200255493894843040736002,
  552133090106063360477325175613928973104695568269102266788045122576763090890430431545163725942446404219137341018036744041232805714830821060402780801585685204603932603555880789416038375083047231063150374232535681195356103646829742962789856035507833984394124050345395413835805559803356136823644030161032571742525987329260315697498776290629603055525444691983412029528941711505624250284922727446351274702744735252482509299026396728153845268890253431439004820170702428928648925631599023237554650930663810221898815590841055502114762862385745828020111556440850815640198186618263882973001958294827227203017018402419928780444440172690531611932992701617404670691549905015108816572414066590146567925130358437901438223884310424521013214214303313374140121154418147694968001159735066144301723011296312235158211020101406608862317988200963781022163557227009275695558695421150081133553145704548600744228412137120619007163340052105686220065693793557141605100618676906734230185005574590561242984530051651911296675854000444205037796679229004109633937593909930032508321929071524600352676064420225654003101002159142481690021758494292281301600227646167832797747002390398403540307900024928687756341348200255432371694412209002,
  584002299085594460477739501069171559504610086325203253765044129226596659982890431627207634458854004220131446688014664041244631381387902670402918864315846995803934184914123794829038392846456204093450374428148599241565203648940655019317602035530147255672752870345626348106726020003358475925099030436032594918616546567480315922014892169298403057650876049406899029548593605611946760285100094870046255902746296952905030206026410134345091240960253543566562210183702429841750310292101023244789167077307090221954540627662318802115179817218982070020114584413681017640198399845668608586001959749418568963154018412022717507673250172751813685784103901617782275219134907015111060245253050960146696308907686037601438930287313215778013217945929987151450121173311096770150201160650111962835814011300543167933586650101425242568804147900964560758571209343009278787095359663450081145130895624168600744636508335210762007164688491502369500065735364256739388700618795814586337482005577725032000879030051659461549630840700444369379381191154004109952113640564440032513667140312017500352750479475551747003101078668433261120021758806403577081700227637498772665799002390124816890001160024923909439226719500255370984809354672002,
  617666812346506170478176686665716223604610644425308323121044136227946372009520431713493754958442904221175808344644923041257041271361849450403063589086632024003935840764069632021038411426277048147130374632528151443843803651143758909010573035553409587241490820345866841854920254103360909194156664462032619001429051431650316155060431499297403059854649387064576029568947670818721720285283599857125325502747910937541078822026423974315094429170253659196586022389202430782353070811131023252233507887926740222011819859712712202115607938189323445020117690122811556840198618311663697652501961238144017158934018421840301160013590172814399401588044101618167500244801436015113346757085667560146827004787337814401439648649446324447013221736719706574260121192483364734930201161577711680552237011304827665756170890101444092567433097900965348730341069210009281908074194193840081156806982199120600745047654207175316007166045645089959730065777162059338158500618915254636975958005580870476704441930051667030971613362200444533981762487574004110270492624016760032519010585996871200352824791286686049003101154960586397750021759115796108425700227628817037595337002389851534547974650024919140191303641300255309733735672377002,
  653225268179577880478637961870205718604611232632347967886044143598903371142920431804235514219697904222272896370596151041270063429370018520403215288028148717403937574510164797109038430858884378878170374846054877266091003653442950911930577035577660003878068780346117277245764586903363440288054276581032644025146078821940316396947249492415303062139540141199268029590027987249706680285473445942541820802749578881174640562026438261469455979040253778433372678549602431751245220935654023259893450071938850222070694334183106102116047507710694511020120875447551479530198842137055942488001962761752765501190018431877155696337330172878314480509578801618560487695922410015115676858488877800146960050733213945101440379153932282296013225587514012974400121211938618972038901162518016414982451011309166315012289060101463160990503806100966145009702220652009285058721394779830081168582053770430100745461866522703787007167411551167960360065819187708178253800619035228011216939005584026905015952000051674619552528400900444698844302199761004110589073065813920032524352246468225700352898999789480136003101231035974432720021759422479351994600227620122729120563002389578556337237050024914379987482424300255248618023168203002,
  690781586582964940479124620554281826804611852528543326880044151358464536950420431899656777182996104223425299112143178041283727206801863490403374287454498391003939389707639730247038451182221990062690375069125294946169703655842286438289273035602939079435570760346378051176767121403366073000827707342032670025189733209670316647998153836056103064508418057695329029611859425847445940285669843114011117502751302509782900452026453009608329147780253901384169975436002432749236180973471023267774920727488250222131206120469235202116498814911056090020124142309767352070199071445251624781101964321009284468363018442137843303784940172943585110269381801618961381914534991015118051311964510470147095485269607880901441121986491610017013229499164970368380121231680568567472801163471178830207263011313559707418446700101482449987235981300966949669372422064009288239264417571400081180456761493282700745879162102540320007168786248098238500065861441946465709500619155735831376877005587194326511480530051682227282128785800444863966360815120004110907853489663920032529692102155929200352973104921084429003101306894970135190021759726462755531500227611415948227407002389305882078634650024909628802762226000255187637223632430002,
  730445244673579650479638024278007715404612505777055083703044159526576555102330431999992342736073204224635728345430965041298063320860042910403540928488215839403941290068972752339038472435868311092350375302152549614465403658345986299604585035629288996106576330346649575824240592303368811268230326537032697038264794440690316908547273379746903066964250258624394029634467673181105810285873008007042722802753083602024940809026468232937441477640254028159256158764502433777157326846895023275884001026812060222193398334052718202116962155781582213020127492674780139660199306362308321965801965916693608251667018452627013918394050173010237952834850201619370329694357914015120470892108257690147233347488495569901441877335372380703013233472535277542380121251712964704739801164437353149592683011318008440058567280101501961723866380400967762782560220551009291449931982672570081192431759340103400746299557818419245007170169774304646500065903925517362523800619276779217003269005590372750680881640051689854150015708600445029347297690714004111226832421449640032535030133577396700353047106619940930003101382537946494140021760027755737926900227602696795356527002389033511590877180024904886612230674500255126790890831959002,
  772331566071824300471017960573605139204513194126010329781044168124182070072640432105488462344935704225907024988269163041313103916184959330403715567711308825903943279470621848693038494661104501001850375545567086767357503660958443217933641035656753605868657210346932279209464899503371659172821753643032725102403304132420317178940438688252603069510104403951456029657879256995502850286083164105574295002754923990771479841026483946079408097280254158872020994330002434835862552378874023284226929986155200222257315160902269102117437833328913091020130928552279534060199547016987661059001967549601626611097018463349406769960500173078300152224372401619787480318310621015122936385780757850147373677056905750901442645391380075601013237508498381102170121272039601061992501165416695168601359011322513115421397370101521698383745395300968584422967066801009294690954077704370081204507704103592600746723070593000109007171562168272644220065946639163977010000619398359284860722005593562186927785390051697500145639252900445194986471066754004111546008389241450032540366321337434600353121004825776030003101457965276710110021760326367689270300227593965370406065002388761444690559760024900153391063513000255066078580499299002,
  816562024948835180471075087237446732204513919412724086485044177173268015218450432216403382550236404227242165068133601041328882629172050970403898577843991066903945361960035009465038517900985281391900375799817352050475803663684228581870744035685378494188294830347226605785005198103374620949231865241032754257010636461100317459535574825378803072149151951209406029682121572522328160286300541948359703702756825564676717708026500164085343376180254293639048883534902435926228845108494023292810108322032360222323001882405537202117926157730542275020134451997256039490199793540809035418901969220545381716775018474309851951469400173147799342426456801620212985596539813015125448592280786160147516514224372071001443426347907733696013241607938589493070121292664314212043801166409362267679252011327074341438073180101541662167433906000969414664789432793009297962561961359180081216685255399726800747149717399801696007172963468548920520065989583629354119100619520477148917277005596762644569593860051705165258298926300445360883238080370004111865379923311270032545700646128098600353194799479593493003101533177334186990021760622307970914600227585221772734689002388489681192188130024895429114524227400255005499850321875002,
  863264565458401390471135341018627952804514683568124619517044186696916219863550432333007912393256204228644265957500238041345434655095637740404090348452246869103947541762950251826038542200412614437930376065370518341266003666528099458305145035715211046062912450347533017041873328203377700989605867234032784542913100545360317750703106743070203074884671516028781029707222909575144200286525379341267337402758790269793383341026516902446778331680254432580204071574302437049156875939638023301640102395675560222390504900842198502118427446493396956020138065110951127500191004606810430021901870930353370051264018485513272013435250173218763655435180401620646999904959081015128008323520572420147661899830467545901444220400966397448013245771751187992300121313590984025259901167415513425216963011331692731519849130101561855292800361000970253582720928238009301264988166942600081228965075670707700747579515263134654007174373713741011860066032759656465792200619643133920330607005599974132837476670051712849477144180700445527036954778947004112184945556145130032551033088728522700353268490523667080003101608174492523950021760915585915531800227576466101164248002388218220908201210024890713757963684200254945054259931167002,
  912573937310303190471198888769445252304515488621392094866044196719356397426490432455586016881580204230116592888104931041362796818157763590404291286685410685503949823290996875911038567606212336148140376342713241156147303669495005869247089035746300514483414060347851992138242938503380903849236392643032816002407123065640318052826377661515003077720052336492036029733212480450310040286757921575648861702760820111232103212026534177107891363040254575818717997740902438205571602933117023310723648247538990222459871765409218302118942024615671911020141770041825784460191030473607346296001872679870849450665018496964683583506150173291221729403440901621089680224307569015130616404203269070147809875312422289301445027749215856720013250000842554681230121334823534075353801168435309230586262011336368904595990490101582279995118139700971101251954420312009304598466505907200081241347830187873000748012481258033623007175792942516921750066076167988201337900619766330707434436005603196660876372250051720552791174954500445693446976133713004112504703822456530032556363630004763100353342077901533747003101682957125507410021761206210827172300227567698453982745002387947063648995260024886007296819763800254884741370892151002,
  964632048277968250471265906013123698204516336704820559437044207266021623248270432584435437652473604231662565756209274041381007644585328600404501818044991976203952211149609953482038594167213859159220376632352443444942703672590098343360162035778698091402428950348184028550451995903384234252388774727032848679310061252290318366302080837399903080658797844365395029760120448656611320286998421652942907702762917154866241624026552004478060079950254723481278838407902439396422889560110023320067655723782600222531151198809357202119470224751978778020145568986547776280191056968484138541901874469960151363913018508669199011692200173365202716915600001621541186179734181015133273672002593290147960482712825244301445848593995693369013254296130277405990121356365932048114101169468911897253310011341103485151828800101602938527163151300971957748184153008009307963232071375270081253834187054561900748448632510188030007177221193604737330066119809367357785100619890068615725021005606430237744987360051728275189242196700445860112656053071004112824653259199180032561692250909637600353415561557986335003101757525607103220021761494191981326900227558918928947095002387676209222946040024881309706617000700254824560746692626002,
  101958833447105230461336577382329337004517230058913680666044218363606415546850432719868342041478704233285766231454329041400107438903763340404722387186023641903954710146270500962038621934333063526000376934816130872484103675818735752162758035812456981296238100348529642747049276403387697098325828805032882619012697806760318691540705128112403083704529346339142029787977958496894470287247140515681742702765083529083384174026570401444742116830254875698123294006702440622686137737781023329679212696663070222604393124414087402120012387381872122020149464190997955420191084105751551324401876301500998406114018520632028041556430173440736293380862201622001680080912209015135980977744659190148113764687410371501446683139356628274013258658543271724130121378222190153017701170516485275965663011345897103266976220101623833159311675500972823147607867236009311359521241647790081266424817208927000748887986195871678007178658505792244970066163684536630243900620014348747847592005609674872415798410051736016660048394700446027033347395964004113144792405579630032567018932482561600353488941439066634003101831880311448410021761779538624984700227550127623285972002387405657436432560024876620962966235500254764511952732742002,
  107760014924338680461411097079243767104518171037725156372044230040127537994480432862212001816335704234989945182419102041420138363520818470404953458752264213603957325299084280390038650960658498530860377250654238728880103679186493441229254035847632477411511400348889370886668105203391297467538695292032917868533471051600319028966994773225103086860989818511593029816817165525789530287504347285074582502767321426584676902026589385386693113500255032603130673269202441885362935981408023339565589380853280222679648694012630802120568860981817548020153457951295957560191111900024465103901878175390827293866018532858479507772290173517852665549234401622471326962692285015138739185592034490148269764512928703701447531592092174584013263089021899860320121400396365537846101171578194868017296011350750394653709320101644966179638485600973697526928923213009314787571683710710081279120394426721500749330559541871906007180104917926546200066207794238602348600620139172203583121005612930573775058470051743777192148122200446194208401985337004113465119803070030032572343655849383000353562217492058367003101906021612843800021762062259976690900227541324633702555002387135408093859240024871941041564234500254704594556314490002,
  113883317164776680461489669358230465204519162114455193676044242324987647549870433011809502889417704236779030432535556041441144521759323520405195518246634464403960061845712646621038681301541022874670377580439511648204303682699171667052615035884282040790784790349263769540533128803395040628190471772032954476574494951320319379020423824427403090132047817415702029846671267908014620287770319505343665702769633106233245366026608974187530085030255194333919327951202443185481723005067023349734242747674690222756970316158512502121140002200664319020157552614845613090191140366227879882801880092545117234985018545353963060365720173596582580151285701622950294626297884015141549173230029230148428526095106203701448394161770597163013267588518090653840121422892560706196301172654207838588333011355664000695509820101666339894015190500974580963358422180009318247622356722590081291921595324027700749776369825417399007181560468913670730066252139215736634400620264540079834978005616197350622802570051751556773948564100446361637170621298004113785633995420570032577666402222224000353635389665480154003101979949885745960021762342365226610800227532510056377316002386865460997678770024867269918193353800254644808126631340002,
  120346183539267750461572509032170623904520205887314976270044255249041916697900433169020487379046204238657134860592914041463172044483517130405449072938325260903962925252669390976038713014687015538330377924768417360368103686362804350626505035922465382173994970349653416440434636603398932042779599882032992493579425542240319742155685669697303093521701511004523029877574538702633480288045343394995562102772020894952964696026629186249648730500255361031945493603602444524098467118156023360192821039339600222836411685125753002121726176038689660020161750581400432270191169519603006821701882053897723862172018558123990916050240173676957332663486101623438753681070929015144411832055250910148590093976688765201449271060767182076013272157995460523170121445714923937989301173744693030161445011360638568485770770101687956626208829500975473534617329720009321739913515494390081304829099359939400750225434374104723007183025197718189570066296720210364952200620390453470615716005619475211672855650051759355393710052200446529319003094365004114106333528671800032582987152899307500353708457909078548003102053665504759570021762619863536588400227523683986970821002386595815948413970024862607568721174400254585152234757912002,
  127166977930122100461659842003595859004521305085671574117044268844667764885240433334221929448242804240628564860649804041486269180469342220405714652808068897703965921224998052143038746160255294368770378284262095743007203690183668159172007035962244546876515210341005891125303037703210297737503017261031103197179323184220301011884319810912402997034082833089369029909562359099156110288329714105213670802774487189678870917026650040508503338460255532842604592398802445902297361767212023370949168385291370222918027810486705602122327756030280883020166054304149507360191199375713469536501884060401218791534018571174179637016730173759008776200685201623936877586773229015147328067366443660148754513345574945901450162504296818429013276798429435444360121468867649712946201174849820976014772011365674750866664220101709818717980729000976375318938599541009325264686713960330081317843588839211600750677770565824410007184499143362825800066341537964678908200620516913467033983005622764165552841060051767173039546604400446697253248198728004114427216951166790032588305889264795900353781422173821095003102127168844629870021762894764040205300227514846520626399002386326472744680100024857953969100153900254525626453639717002,
  134365032031990640461751905821797334904522462576486311749044283145837839863920433507808946410564104242697829176791134041510486390675193920405992811533125130803969055716344720842038780800957884567660378659567344486481003694168291927836857035100368400274755490331048087638136332303210718249701655897031107296532393113110301050956962445345302910067346176482985028942671252632137660288623735985563022302777034459360541170026671556447258193990255709915335055631702447321191537581964023382011329522799340223001875047323936402122945124430323624020170466290824195740191229950451616894501886113027234891564018584510251937562130173842769330537307701624444842696450251015150298798557635670148921830043037152401451068710446893884013281510807373952240121492354979137063101175969763913791627011370773206468172550101731928529185586000977286395069298100009328822184808634690081330965748914855300751133395828685726007185982344928065530066386593220720301100620643921157281531005626064220804194880051775009699426462200446865439253745338004114748282813563240032593622592788624500353854282411889397003102200460280235070021763167075842843700227505997751972957002386057431183206710024853309095367268300254466230358082991002,
  141960695017456300461848950267145291604523681371060196904044298188196395833360433690195646656409104244869648128807312041535876446575926690406284127513593895403972334939441936050038817002164784476320379051357642731612803698323466433601622035104685073131621970331091995779451204403211155349652996911031111553020635024540301091483841112973702910444425074696907028976938920401594810288927722857203153102779665247019798284026693754111819560720255892403724724496202448781923791290408023393387554623984990223088011127088670402123578672404364816020174989104825939920191261260044949097401888212766817348812018598138038518944740173928271991258886501624962828299863514015153324959313619330149092090572032179201451989900210507385013286296128691168440121516181200372087301177104695799146660011375934599747279860101754288437870797200978206842272729699009332412651962059460081344196267590693500751592327640940380007187474841551766740066431886720371576700620771477626620222005629375385882176960051782865361172629400447033876366574999004115069529668845460032598937245026329900353927038576672293003102273540186578850021763436808021747900227497137775127668002385788691058859820024848672923643668900254406963524744542002,
  149975385682247670461951237963909817604524964632100622316044314009139221688740433881816016019192404247148963245540172041562494532729484080406589204941729757203975765377019862599038854832012881495220379460334214088449803610265625453405075034109181432223614400331137682588632032503211609668469482205031115972446797640790301133517034229267802910835100922661367028101240427732731080279241998293809954802782382171864132369026716654126257555140256080465619889321102450285667331876982023405086304231522390223176495189118623302124228800222621172020179625366375598950191293321062658917601890360630780616665018612063479932852180174015550339045647401625491016667498261015156407497807785180149265342105601738901452926297520000505013291155404983865290121540350649068008901178254792319469484011381159601027330900101776900840376052800979136740330562508009336036333646240000081357535835723867300752054583530905455007188976672428767940066477419205346302800620899583957369220005632697669155887400051790740012463410700447202563932571514004115390956072336120032604249827618882600353999690622758860003102346408938782890021763703969626079200227488266683698626002385520252164662650024844045430134334000254347825532121696002,
  158431647190396050462059045022933052104526315681124190079044330647897279377940434083124844269654004249540947323330576041590398353752307590406908674915998349603979353793161551065038894361519176558480379887227130494062803610717400168409641034113864707114323580331185217636418218703212081860384301545031120560819696292280301177110411195378002911239844834245461028104910748946577010279566895910411820302785187931457256999026740277708627382920256274263237028210902451833626544361977023417116254305261430223267387812828134102124895917457903642020184377753684657020191326150422289901801892557650071334980018626292628473869210174104638549089606301626029593095152199015159547376902332930149441632495363734701453878129280809462013296089660156564900121564867708798568101179420230907684634011386448886537544600101799768151433126700980076169544954098009339693476646068720081370985147027299700752520181076885103007190487876810494300066523191417179636400621028241228892150005636031078908282510051798633640832949200447371501296674501004115712560581707940032609560322292515900354072238505931637003102419066912079450021763968569676986300227479384570787611002385252114291817220024839426591127714300254288815960542358002,
  167353204545361500462172661715565417704527738006211178092044348145624219413620434294598693499005004252051014927732369041619648245886863710407243196601684181603983107245119730582038935664698481537180371033279645842073803511188434684421398034118742408104505350331234673116889194603212572603565446705031125324361235723270301222319691415703902911659143575245076028108709001241939720279902759660352229202788085303948268645026764646687199747660256473963277308419102453427037771595740023429486301382134040223360751050584122402125580443187532285020189249004148703790191359765396513535001894804876137314269018640831650101379670174195571400647227601626578745949113509015162745574350890530149621010280095473101454845625405642185013301099930548692810121589736811499846501180601190756130167011391803138452699010101822892804265962900981025210740679418009343384329062739800081384544898072120500752989137907091600007192008494004565000066569204097218835700621157450517584543005639375623336194290051806546233671774400447540687802892587004116034341756995310032614868710858557600354144682183159794003102491514481804350021764230617167658600227470491528992724002384984277229725720024834816382995399400254229934392155003002,
  176765024919028990462292393180342701504529235270127854670044366545487947762710434516736910225062104254684833357393203041650307293351813220407593458439927710903987033095613222822038978818685759749230371079783344899725803511679523379418108034123822336736400900331286123942659817803213082600957252441031130269513662050030301269202505174202902912093500060807841028112639463086828230271024994414059371102691077150360888879026789783517110282240256679737043913623602455067170114458205023442205567851655090223456648461281036102126282806199313330020194241915563555550191394183620027169101897103381302668752018655686826391257540174288384286728905901627138666711932707015166003083003554340149803524694409012901455829018848980243013306187265062776550121614962437911872401181797852830513225011397223044932972070101846277250690952600981983945267257292009347109140317150090081398215788290036600753461471699565023007193538563374397150066615457986613761200621287212896861146005642731310550350830051814477778227340100447710122794316235004116356298160605830032620174975213258100354217021612592408003102563752023389490021764490121063393800227461587650411044002384716740766011460024830214782191762100254171180410918895002,
  186693380976722440462418560163949071904530811318833578592044385892766426020210434750062683134477804257448334089794726041682441449673136850407960179407144517603991139025621770006038102390386328618140361128316177366336503512191492286682226034129112596676086660331339647843393633803213612581150313307031135402947051024690301317818456425334902912543433867938915028116706549925560440271060881490558578702694166416944325822026815711297438241600256891760562263004902456755326250871681023455283407349453300223555145144628703902127003445201654694020199359347364419270191429423096574733401899454259149194292018670864556517787280174383113223927273701627709550028796410015169320911014382090149989225677519840401456828545641909159013311352725293704850121640549118023308401183010399883942390011402709300163947750101869923961217476200982952455001078425009350868161153289580081411998519975659800753937200182092172007195078124338810480066661953826307397500621417529437143478005646098148575397380051822428261604567200447879805613130501004116678428357331300032625479097337615800354289256753551575003102635779912355650021764747090301654500227452673026641287002384449504686538920024825621765253625100254112553602594232002,
  197165917342850200462551499798081630904532470190390375369044406234947894640150434995124148454630304260347724729350170041716119664202418470408344110326854624203995433047698768509038107100399281043850361178963880703437103512725200311674585034134621604986912580331395325467744830903214163299280691700031140731567039955040301368229187557016602913009481763522155028120914818365868750271097974878992398202697356137587317348026842453788724850580257110214703188775602458492843274039239023468729410271282760223656307776167125502127742809037896320020204604221888497310191465502206092201601810185862490408362017686371359266230160174479794862385983301628291593754509596015172700082051361850141017816388210961001357844444927280156013316597385659053190121666501431519226401184239016471039356011408262604396780420101893835425148660800983930822347532945009354661643641618520081425893798288791600754416341132124430007196627216371629260066708692357026378200621548401205847347005649476145349921480051830397670766386700448049735600627993004117000730914359180032630781059297205600354361387566525749003102707598524305540021765001533792134200227443747748786461002384182568775435220024821037308799917800254054053554732452002,
  208211720358563380462691566413905889804534216124293467521044427621835717228160435252495545032865204263389501479199729041751414014036692060408746035236028455603999923519822134729038112020635291204090361231815695871157303513281540493956925034140358103807514940331453240488843192803214735537959360097031146262522810848410301420498446184577702913492198248303100028125268970487843760271136313424003273602610064943629695741025870035430941937660257335285309140283602460281093550328665023482553409410003850223760204643022276802128501356904932368020209979525661431480191502439711979775601810431761583407206017702213875076427990174578466495910666801628884999001092418015176141635508878530141037039068328366501358876958995204030013321922333530475800121692824008231960401185483888962127873011413883663988528990101918014150682397300984919130243139579009358489841182435630081439902331256666100754898912376694724007198185879001285480066755674319271569000621679829267370559005652865308726478140051838385992534288900448219912097221661004117323204401283610032636080843242002500354433414013162961003102779208234916630021765253460416816400227434811907456405002383915932815110180024816461389531334600253995679856666527002,
  219861391289915320462839132395868835004536053571242061623044450105658052512560435522778421288875904266580462158922489041788399841562879920409166772808138231603910461915980429366037117160188174473410361286964505583645503513861441315766810034146331172448343100331513479713440103603215330108232850673031152003215332578340301474692154036461702913992156117292894028129773858278081390271175937165511117502610404952974394641025898481361921752930257567163323484506502462121485597233253023496765485718094220223866905680417586602129279558576204981020215488310708004840191540254768502883501810683239164611101017718398868117906540174679166072223941701629489970185999732015179646626722707790141056595818762430501359926333318881828013327328669366179900121719521528595091201186745205557501175011419573191442644530101942462665012564200985917462157673465009362353008509232200081454024829776134200755384931792333353007199754151810418760066802900453308599900621811814683080689005656265646471616260051846393213588861200448390334442457376004117645847390116230032641378431406209100354505336056264210003102850609419934230021765502879030038700227425865592770497002383649596586276220024811893984229995800253937432099501401002,
  232147123152392460462994589076716662504537987203370549962044473741182569523370435806602896296862104269927719791292727041827155897858678870409607177835187700303910952906028306440037122528532537350940361344506977824907403514465868058902202034152550239921091420331576133194837317103215947850576114030031157961305870093430301530878477994036702914509947037064184028134434488192482850271216887373758623702610755972987594266025927817436259080890257806044922973920702464015464981845683023511375974198269220223976482508955671502130077894629148835020221133695887508680191578966928323982901810940413489466280017734933228396863830174781932203366107901630106715080968855015183216127187556420141076491924234039501360992816590772145013332817506844477790121746598724100519701188023156301767375011425331905449625530101967183514430500900986925902096295310009366251401692034180081468262007615820400755874417304982945007201332074435476250066850371499158461800621944358511302875005659677166265907790051854419320470343600448561001975026759004117968658455297040032646673806108080000354577153659776684003102921802455164510021765749798458553600227416908894360180002383383559867968780024807335069759125600253879309876104398002,
  245102781325460760463158347675648527204540021924961183107044498585836430875280436104628977349656004273438716782158730041867764492191052080401006814277108168203811466270431604221037128135539191557480361404543714817751503515095824211630459034159025097915910740331641294349724173303216589635918620760031164144724768937210301589127903349773902915046182140423434028139256025851249900271259206585332429702611118344660073720025958070244697052960258052131653454674602465964515240294505023526395469924875800224089008472685521002130896856677169318020226918868254208070191618596150167321201811203405139571896017751823973895522210174886804176243491401630735444861503578015186851224777179660141096732744451441801362076660759099614013338389972998430360121774060377758692901189317933098274056011431160530927832950101992179264426708000987944534601680455009370185278140734070081482614581418223500756367386889912586007202919686566312510066898088196588105200622077461807307776005663099875703980500051862464299579164800448731914032779805004118291636173705130032651966949749741900354648866788787227003102992787716467690021765994227501591400227407941901371545002383117822437565800024802784623062697500253821312781095754002,
  258763988138824300463330840281625160004542162883660197268044524699831778688250436417547936455014604277121239718499798041910311647862957100401055059933878693003812002998160190902037133991491170401490361467179407645196803515752352927393465034165765914241749070331709060079052786603217256366704769615031170561680523572640301649513309349712102915601492638956357028144243800869703590271302938640185772802611492419054100622025989267134008255240258305630568888921902467970158818596325023541834834198731550224204558677970198102131736947606235668020232847084443324060191659162806618715101811472337064763651017769078252744233340174993821963326104401631376374157000994015190553023967095440141117323715044749201363178121064705570013344047208351584190121801911324561960301190629729723610692011437059799064464600102017452499792756800988973444756147313009374154896608405950081497083270701761800756863858571630426007204517027945785750066946051285101020200622211125623299518005666533782294545790051870528137176496000448903069952737287004118614779124669100032657257844817022900354720475409515655003103063565579751240021766236174930924100227398964702467932002382852384070807990024798242621165116400253763440410839240002,
  273168211620615400463512520883943528204544415482220363123044552146296967913190436746083748318561704280983434810755236041954887264669082830401105552020383243703812564120535300486037140107100370109370361532522996730902103516436538537143400034172783246745700650331779530893085109603217948977989701148031177220669138284280301712110047088230102916176530453958470028149403311828663990271348128719689093202611878557586245045025102143622738309800248566754373767775202470033958035394130023557705200838190450224323210033170895402132598681816175628020238921672082984810191700687692062577801811747334625889905017786703345426839160175103026233496651701632029721101528786015194322646059928800141138270348510360201364297456078245250013349790367054815470121830156451951105401191958741842191267011443030447356699230102043005824723466800990012718183787418009378160517194617440081511668797862800700757363850423796239007206124138369356720066994261503927913500622345351008403940005669978893460437720051878610819384798100449074469071103577004118938085889977710032662546473879265300354791979489308175003103134136420963020021766475649490925600227389977385832428002382587244541817560024793709041170878000253705692363432707002,
  288354858606492940463703866452283460004546785390793924577044580991413802211270437090994592473101104285033824006561222041100158528823143950391158392071679240003813150712984436904037146493524839597770361600687838392095503517149508117201988034180088057727726060331852811040749602503218668438571645436031184130483789648100301776996019824723202916771968866273650028154740231388200320271394823385735439002612277132317715511025105460644533753220248835721568991525902472157516067050433023574017982609193990224445041289162839602133482585466754678020245146031232571020191743192030758289701812028525638289683017804706667019676080175214458363052520001632695707385259328015198161229413402700141159578235165338901365434927737730862013355620617024272970121858800700285028101193305167020914713011449073219652993450102068841862919275600991062441052594086009382202401348718360081526371888177609600757867380569132173007207741057684683390067042719592017311100622480139008656638005673435216538645230051886712332188372900449246110723278962004119261555053890220032667832819589156300354863378996630810003103204500616084750021766712659898638700227380980039170437002382322403623118270024789183860264245600253648068238698873002,
  304365372417944760463905378068533023104549278559800967114044611304561038652780437453074422326990004289281321804157146041105050388649661660391213686072749954503813763896866543047037153162386743053650361671791877686308803517892433114604220034187691728867676500331929008643450002703219415752161970597031191300224799861980301844251765794094402917388503185580810028160260411548684670271443070620928434902612688526252406480025108880752715259870249112756601296849002474342477955583842023590784877797184030224570133080699425102134389196728628922020251523635847916880191786697485058167801812316040415983455017823095769464720090175328160446862779801633374558306568505015202069929671007250141181253044111861701366590801386425963013361539140080440490121887849063313618501194669204743904954011455188866194541720102094963257688835900992122700076591284009386280811873123920081541193269804279800758374467179332816007209367825791217120067091426288026229300622615490666991293005676902758780350810051894832661433906900449417994243872165004119585185203146230032673116864682544000354934673901062903003103274658541125300021766947214843831900227371972749712196002382057861085653700024784667055708914000253590567638176025002,
  321243335327700160464117582112803234704551901233399351079044643158464438860490437833154604019402604293735252794862132041110174563368752760391271544647384041603814404841370148671037160125791020543800361745957827780741103518666531031951309034195606076682092920332008235833472939803220191958594132145031198739309930477660301913960543584766502918026851439681506028165969889063170260271492919869881129402613113133642850268025112407005285852390249398090016311406302476590531639941523023608017876923777840224698567968640821802135319066039259596020258058035273822100191831226163769284901812610011816586988017841878343877314270175444175309682098401634066502824806597015206049919995373950141203300524211832301367765345811092335013367547132088319990121917306588653816101196051056427330483011461378143656903450102121372672051852300993193582517963317009390396012926583070081556133673784602900758885128474974474007211004482639795590067140382330310852100622751407023228038005680381527350968290051902971792831024900449590118966712595004119908974926976120032678398591978254800355005864173290559003103344610572114180021767179322989068400227362955604215294002381793616698807220024780158604847691000253533190165108858002,
  339034576040264890464341031506151653504554659963583499443044676629353656144850438232105628090922604298405369965216778041115541770201404020391332083254809381503815074765487312112037167396344772792940361823313356081119203519473067173866997034203843368528818890332090608897145824103220998135072760011031206457485006360900301986208420160045902918687755084356524028171874891005219400271544422081654752802613551360304270988025116042546577634270249691958615318470602478903409011111648023625729269611164250224830430483063800802136272756363878762020264752855764334290191876800630661389101812910575286958725017861062222888948290175562546517623378101634771773613748042015210102391304376600141225726505071711401368958833280591688013373645803098737530121947178378268899101197450925434303382011467641815191784690102148072788842129800994275176189183123009394548270027434730081571193834045890800759399382725423419007212651068232237170067189588456917203100622887889114061899005683871529330185250051911129711952839500449762484224862957004120232922817110860032683677984377918400355076949785100157003103414357085094920021767408992969765300227353928688967129002381529670230420300024775658485102167400253475935424439354002,
  357787282426131810464576307012648155304557561624940528101044711797126260589230438650838897103630704210330187379063051040121163206145893310391395422394388741203815774940066276011037174987177397212310361903991277365255203520313356457222032034212416339178063650332176248422901244703221835397464158378031214464834879996590302061084361600878702919371979734375342028177981840496419720271597629753367156602614003623936942966025119790609563035390249994605615815714202481282886991589576023643931651597231030224965807167269728002137250843461598425020271611802031275640191923443913123234401813217868909591511017880655383025551450175683318389791160401635490607115728139015214228552509988530141248536898037672001370171539584844839013379836377490782560121977469588950954001198869017089857572011473980650468983540102175066310810832500995367569455141209009398737850056850180081586374487402764700759917248248742907007214307622620932540067239045405571878400623024937973051285005687372771712003140051919306404236503800449935089350631339004120557027467791930032688955024865782400355147930709371854003103483898456118730021767636233394259000227344892089787444002381266021446810610024771166673972391400253418803022797702002,
  377552119759240960464824018603534734104560613430093458692044748745519216955230439090308592475097204210843543215366042040127050568796803340391461687818696471203816506689945865059037182911961503232240361988129754174943103521188765287364420034221338207969153400332265279454408985003222704901629531108031222771794746546700302138680326650092002920080315916257536028184297362597929830271652596975001440502614470354457060751025123654518224499800241030628081595425802383730788639723012023662637931904511680225104786622708059202138253916156755743020278638658821495120191971179510969688201813532033449759634017900665947121797710175806536010077747601636223243596474147015218429630759925970141271737697201178001371403744074152159013386120094115390220122008185432806631701110030553869600813010480395425718498490102202355960729992700996470851235274296009402965021262065130081601676373558889500760438743411599675007215974185908437400067288753913672756300623162554630606724005690885261404782990051927501854983762900450107933675583598004120881287475780900032694229696508530800355218806920073246003103553235061238140021767861052843869300227335845892030770002381002670112791930024766683149036544200253361792568493313002,
  398382354718746530465084806886354686004563822945862554356044787562288143684010439551513623926129604211381720112138466040133216078038628410391531010755307580803817271396174765272037191184934635992360362075872504728627903522100713502667345034230622696572823730332357831648941714803223607844802284914031231389161820362390302219091363140478202920813579843400497028190828290370501100271709379475445914502614951994336332019025127637689983999250241062724076294534402386248984279466897023681861340166046600225247459554832694202139282576615587765020285837292523316870192020031405401898001813853212403431596017921102186771851600175932245239123788101636969927200637081015222706871682091690141295334980415015001372655729698873919013392498206440058810122039331177746077201110176069954688831010486886923772791030102229944481496187700997585111005693033009407230053259593130081617100235108652800760963886629169000007217650798247060790067338714718279708900623300740113979377005694409005231287620051935716049361501000450281016530555442004121205701440369080032699501982455099900355289578392252780003103622367276500480021768083459872960000227326790180588895002380739615991690790024762207887950630600253304903671505845002,
  420333985428253440465359344602056752904567198110177189706044828339394695434240431003549966508497304111945884661774465040139672498649513340391603528137643449703818070498318943679037199820921838516580362167369018626737303523050676389788134034240284047379590380332454039441146026703224545467010806693031240328107384001080302302415707391648202921572614214207577028197581671107566770271768034669797597502615448998950511758025131743638193804970241095774892552533602388839392656102004023701615434111409560225393918819909568302140337440628335053020293211652802705000192070024068123098001814181552045960873017941972524817134980176060492726445864601637730906008034839015227061539631868180141319334910319964801373927783049479704013398971982694733460122070912147975196501110323471094396955010493455934109218360102257834636234486300998710438801310426009411533217038435140081632646817538821200761492696365039405007219337499838457640067388928556105419500623439495447249999005697944009928732810051943948972402302700450454337245664700004121530267963387170032704771865936499500355360245102033592003103691295477941860021768303463009005300227317725039893270002380476858845365810024757740868448143800253248135943476341002,
  443465877818112480465648338193212827604570747249772062853044871173202425896490431054336127893443804112537256702814106040146433163852014360391679382845231063303818905496860581974037208835359083522930362262774780630349803524040186772105285034250337042535333840332554042212395160503225519052548147025031249600189221052450302388754886662367302922358289033862108028204564772746053790271828621707961783902615961836937097589025135975974689952180241129807587056918702391503982118462122023721914107216073690225544259472793058902141419137896867239020300765774269612820192121182470612274301814517201481564647017963285537871488340176191325922732433001638506432090610701015231494917942263000141343743735382094301375220194396961784013405542706018834500122102933724491132801110472778621135959010500103252892620270102286029208402574200999846925217969182009415874784963266320081648316869230131300762025191131115963007221034330933215650067439396163506110700623578821651317795005701490282148832110051952200609005001000450627895150323458004121854985649214450032710039330265623000355430807026606906003103760020041580700021768521070752651600227308650553917495002380214398434225300024753282068339757100253191488997698343002,
  467839908609619220465952529446630285104574479098703056296044916164681503109930431107624413694444204113157111677510916040153511999849261860391758723953746695603819777955692028115037218244317607189320362362251502804263803525070837173890084034260797023645985660332657984465905947103226529931490091574031259217364444474710302478213824748143302923171502460415613028211785090459745720271891201524581445102616490990562414800025140338412409891710241164849944394684702394244771828244831023742771596517472940225698578815690151102142528312327933012020308503778175043270192173532093558306101814860312693602603017985049958884317410176324793092310600001639296761570117486015236008309176950310141368567790940826701376533257733620887013412211674609453370122135401345581049601110624014071118194010506829683018065570102314531001895102800910099466141456853008420255030777615810081664111141458835900762561389487522802007222741331830444510067490118276472349100623718719743889297005705047828457850380051960470943935232700450801689573250013004122179853104788070032715304358837065900355501264144225881003103828541343411740021768736291577784100227299566806179700002379952234517244790024748831465513000900253134962449109181002,
  493521115233599790466272697213785795704578402817719579477044963419622665127500431163534733588937204113806783090543793040160923551386377990391841706995228808103820689504708395384037228064529178320530362465967365325209403526144282062850907034271679912173874710332766016007807873303227579481263143325031269192002732440810302570900950815928802924013181675873173028219250353440117460271955836890330835502617036956098323089025144834768075842960241200930495571774502397063832996982461023764202490601123760225856976447931141602143665622332134947020316429874139336920192227098936457071101815211040595667525017100727467974219150166460943325785688901640102154676534559015240603035386231660141393813500267859301377867270814224139013418980201870723410122168320507324203401110777199185903538010513636034153764470102343342841148244300910215373911519111008424674229607031290081680030388398216300763101310042504649007224458542877362630067541095630619862200623859190739467504005708616655336652180051968759961825991700450975719842480990004122504868939612230032720566935126941800355571616434199151003103896859759399880021768949133931586900227290473879744953002379690366851985340024744389037931954400253078555914281185002,
  520577853010176720466609659212660674604582528014531832959044101304886082037950421222192581651517604114487665073072326040168683008378563800391928494228859534003821641842502572744037238313412337554320362574097266266410503527262240173777069034283002230549020850332878292134357975803228669128263984002031279536899984044510302666928311570448602924884283782977575028226968531869692850272022592464608481102617600244208782416025149468964945394400241238078536976054002399963290151260971023786221737760222770226019554316765871502144831741128730012020324548361912196610192281909527373987401815569543083498757017102996875390939660166599826552855601001640922875807225340015245280438365940740141419487375637008801379222535197537908013425849616564361660122201696764097326301110932355913953516010520523122784134450102372467571244467500910332425061122868008429132657962228520081696075367120029000763644971452327459007226186004468883370067592328961180346500624000235649340936005712196769180757070051977067647178183300451149985285383248004122830031765767130032725827042692688500355641863876884599003103964975665474090021769159606234609700227281371857227666002379428795194610080024739954763636923500253022269011413048002,
  549081959931507780466964273914717998204586864765013110058044106516850871425820421283729288839353604115201215056503651040176806233648892090392019254922729327703822636739166549261037249009099642493330362686823080680515203528426496916101283034294781124019433180332994973825501499903229800349532032085031290265292407590520302766411686849357602925785796728413325028234947844093113360272091534849665744902618181380346521646025154245035630938070241276324149793791702310294532242679071022808844654332231200226186416769205220702146027357056361887020332863633164994120192337990932874648001815935981087730978017105314139910797320166741493555302139601641759193586843357015250041879919325920141445596019405092601380599356288239606013432821262961396190122235535729083327401111089506412193362010527491772253030850102401908058017512800910450628876350807008433630593742230190081712246837595928800764192392421178271007227923757047201440067643819002992338600624141855481572993005715788176300394500051985393984361182100451324485228665861004123155340197918070032731084665172895400355712006453683153003104032889437521430021769367716880831200227272260820793977002379167519299902780024735528620744135900252966101360321226002,
  579108929404858510467337442520928008904591423635378989678044111990020110122540421348282286547830504115948956560513201040185309791820509580392114165647014960703823676039203097858037260170465955911970362804333929313904403529638906868292046034307034383265221570333116227944984276703230974674476761273031301390871054537210302869470708747006802926718740253169818028243196763991226970272162732646207860002618780905160058593025159167124989554810241315698219889765202310601216489194031022832086933216003240226357670604927517702147253173889829597020341380173315888770192395370768126101101816310518627489898017107680200003775190166885995980161386401642611380927995340015254888742121933140141472146125103916601381998043379208481013439896500995082940122269843074783326901111248673047582346010534542812807135950102431667188157576200910569994700441582008438168316237489380081728545562698820600764743591701063841007229671841101377520067695566490492066700624284051240991105005719390882920558130051993738957613386200451499218998391925004123480792853324000032736339786287101800355782044147032429003104100601451381230021769573474237724800227263140852164067002378906538921284090024731110587445423000252910052582431338002,
  610738091329683850467730111030922096004596215705387089164044117737134988031430421415995381706526804116732482100043464040194210979409691380392213410579017271903824761664552011551037271817157815506620362926826457296849503530901396362084865034319780467802141510333242227447229256503232193686661493555031312927796812547820302976228984369395702927684166870822836028251724028563644370272236256510505334102619399374911326014025164239493085003770241356232458161357002310916610990135923022855964652573075700226533425130270106802148509911162999850020350102563388303000192454077207171422401816693322864847046017110096011113690410167033386353075249601643479715092668524015259822427589520080141499144478543468901383418909694200626013447076706415014760122304624533532011601111409878398692024010541677081639502950102461747869316689200910690531934002177008442746106132998360081744972308204179700765298588091708338007231430297166921180067747572157704306000624426823929176221005723004895181065740052002102551042768000451674185919990483004123806388351846210032741592389835617900355851976940400529003104168112082838950021769776886646318500227254012032614617002378645853810828870024726700642007913800252854122300769711002,
  644052801899501290468143272409538101404510125259260295101043123771541067135010421487019043905095604117553456216195490040203527856168013640392317181820522157803825895617735241577037283969623925050270363054505123166084703532215966159663425034333038530201027740333373151591196373803233459025645434680031324890715871508440303086814222325927302928683162874515174028260538645725366050272312179213054597602620037361904164892025169466518223511510241397959421377278802311240950848032999022880494284716845220226713792213326789702149798304497974321020359035481903324790192514138993380350201817084564160146413017112562545938357300167183718091826469601644364477754431988015264844359749034540141526597958926431401384862272430909591013454363270942439470122339885898016405201111573145257292831010548895422933270450102492153030214330700910812250035220373008447364245511387230081761527842791332400765857400440450680007233199165825376040067799836738233336700624570174544452287005726630219136617680052010484748627438600451849385318268181004124132125315957090032746842459699335200355921804818279998003104235421707620600021769977962421264600227244874442981053002378385463719283150024722298762773728000252798310139954910002,
  679140642536959290468577968855206845504510654647777958344043130107216132905620421561510705058374204118413618636120188040213279277723739840392425679727965251603827079985125440146037296649146808169210363187582498588002403533584694226999330034346828441150374340333509186161451216503234772388885766723031337294775676722570303201358363065968402929716849373434021028269649902323181190272390575698827445802620695454923950084025174852700065078150241440912533511610002311574477174049332022905692705193346020226898886340171669802151119105940620026020368183706806579110192575585450078557101817484416128214710017115080794713907430167337045520059086501645265955061418389015269955983112676150141554513539974059501386328452804414796013461757602426778840122375633021797940201111738496629948648010556198687905523430102522885620743205700910935158520076943008452023017856004430081778212938044667000766420047642140266007234978487703901060067852360965253818700624714104081875843005730266860756858750052018885534216200000452024816517421129004124458002370748600032752089979839534700355991527766181427003104302530701386780021770176709850901000227235728163659892002378125368396080780024717904928159663600252742615726189296002,
  716093628389243590469035294174829175104511211013140025578043136758799291343920421639635072141276504119314787567224080040223484929574504140392539113255899358303828316940342581104037309877875667474960363326279579163969603535009738606672007034361170815390247640333650523696675537503236135533701673171031350155641383952410303319997713171828902930786383359608301028279067372377735180272471523149150126502621374259688622225025180402662812074830241485126107584276502311917437232761566022931577202057502760227088824672230952402152473084302577575020377552117430155070192638446491358433001817893055695468228017117651765503324960167493423881186688301646184437700095550015275158763555080680141582898291063559901387817776091021391013469261125003369840122411871819837952701111905955739619581010563587734851321580102553948612075245300911059266962557804008456722708053986310081795028368454821400766986548639032050007236768303474853220067905145571501743500624858613533225572005733914825926439090052027304891529105400452200478841046502004124784018143940500032757334934297702300356061145770627489003104369439439727010021770373137197315100227226573274611098002377865567589360310024713519116656895300252687038687250762002,
  755008426830231710469516396269997270604511795694143627030043143741621365642700421721564453545483304120258863131212861040234165362485356090392657700314282066603829608747783497681037323678860493256920363470826106711809203536493340393595273034376087038546579270333797363725859388003237550279302222698031363489512831360940303442873083722342002931892958805867536028288800925557274050272555101045253628902622074399311404001025186121158476929140241530635368019144802312270084590207012022958165485348731280227283727104824164502153861025509861076020387145696490160270192702752633074114401818310663157929035017120276484489250010167652909352490608301647120220959836141015280454188593647140141611759378377025501389330571672492576013476875279252416360122448608269026552701112075546027272930010571063429187882110102585344996767800500911184584994866222008461463602399309740081811974911419803100767556922420681008007238568653855367530067958191289265400400625003703886992185005737574120445079890052035742804158010300452376371612154174004125110171265888470032762577307195334700356130658819146771003104436148298154220021770567252696411300227217409855360364002377606061045980680024709141306830672000252631578652484398002,
  795986586436111510461002247973962929404412410094237367344043151071736648752060421807479099632634404121247830943717348040245342029348338280392781668140120605003830957766289355024037338076087467519880363621460903431259503538037826817193566034391599294895836750333949913012422292203239018508880098069031377313142043854750303570129932844670902933037807795827912028298860735889245560272641391233537928102622796514775486743025192013070230746440241577476473531267702312632679265272281022985475696769884450227483716326896860402155283732958166648020396969532120500100192768535004023624501818737422240163441017122955996271107730167815559059410424001648073604798294057015285843767672046700141641104066062067201390867173080679931013484601522359181960122485848408714911801112247291153502298010578626643498925110102617077788870030900911311122307634705008466245988595833810081829053347246082300768131188023835035007240379579606938830068011498850376336000625149376128368142005741244750027636550052044199255567134700452552494153178383004125436460369592440032767817082733751800356200066900267635003104502657652098750021770759064557972400227208237985001410002377346848511538390024704771477320006400252576235252794236002,
  839134776922245020461055480860430963604413055684556518141043158765956070471470421897567558082073204122283765845472798040257037323561919690392911253684030916203832366452956255845037353094515710748520363778432218374911403539645614433685142034407730596091007090334108385806518315303240542171773213211031391643851285762210303701918512574983402934222201686792431028309257290716078900272730477992593781702623541265420978301025198083415834745720241625686540554951202313005487884492446022101352641957356370217688917881967087502156742027875007271020407028819943467970192835825357320954701819173520155155674017125691364166616770167981431090028858501649044893907595250015291329032446934250141670939717404183501392427918042550541013492441328275405150122523598341250958801112421215000154938010586278257579171530102649150024029494300911438888650136979008471070155760324530081846264459149621900768709364532327540007242201121534999700068065068986200368200625295631239237602005744926720304167520052052674229093621000452728845785989214004125762884090704600032773054245193902600356269370003512202003104568967876903160021770948580965726200227199057742198229002377087929730383150024700409606837382300252521008120635107002,
  884565040551193930461111470915786116704413734007096602404043166841881840159260421992027044655680204123368835791260988040269274618990872470393046704012288991203833837367094368005037368760115420463560363941998086660667703541319212432252156034424504810880832710334273004105787876403242123285696323910031406499551678240670303838394020152089402935447452306476936028320001399901635910272822448102026915702624309329444411617025204337351156436020241675303667224639602313388783840332500022104233668865994180217899460230308450802158236749688794566020417328865177762630192904656081961046001819619147665130119017128483670517736290168150584509753548801650034397781352819015296911537077896810141701273796010999501394013148525617364013500396187881962430122561864232518505401112597341671967245010594019158479006310102681564759598924200911567893830499784008475936394425466870081863609033256869500769291471076968927007244033320488501250068118902427628596600625442470198166435005748620036820001690052061167707948090300452905425831904025004126089441067537200032778288778936177100356338568119390304003104635079347816530021771135810077410100227189869205187421002376829304445633890024696055674168447100252465896890004464002,
  932395055544761560461170357295191851204414446678031492274043175317943628694040422091063830027554804124505305903068793040282078311569492480393188276724973898903835373174341156419037385099907452343890364112426701876453503543061226059000457034441946695855235060334443997924827066103243763939044798305031421898762398270040303979716753871426302936714913184496173028331104205294979870272917390913130337202625101404411118593025210780173772498160241726366957920800002313782847453024055022107192600089027410218115474812392861902159768756404989591020427875084784542010192975060214580589301820074499143335602017131334017001108040168323079376197901901651042430782514241015302592858520672160141732113867008469901395623210783772639013508467609152774700122600652312479831801112775695498208589010601850240549294640102714325074743204000911698147715914595008480844996542861660081881087858605703300769877526835437217007245876217359490250068172999905068434700625589893980392364005752324705035809210052069679675215203200453082233611699049004126416129941070450032783520668400216100356407661239393451003104700992439989040021771320760024835600227180672451780376002376570972399194740024691709658171720800252410901196434323002,
  982748412056956360461232285991952513304415195391182404019043184213436355979920422194893643352639304125695542694171991040295473862613483020393336240390824296603836976650934503653037402142004396465660364289996802143200403544874360162739587034460081927250911560334621605573653484503245466293272776989031437860630476554560304126052273630194702938025980819568388028342577190458270380273015398421451654902625918207780781197025217417326660374740241778916548393226302314187966136031259022110231432562035420218337096113616343802161338924989445201020438673009652132650193047071451417571501820539772636804709017134243524943049710168498976754263269501652069312212048937015308374596823655040141763467598249087501397258455403528095013516657117319965080122639968875721680501112956301034333122010609772405486351820102747434070546517000911829660232849094008485796255486006000081898701727146313600770467551032167230007247729853082686630068227362148434666500625737903557814934005756040730327669440052078210113854211600453259268445620604004126742949354960070032788749898104710900356476649355988850003104766707528466450021771503438913951700227171467559365566002376312933331771070024687371537778288500252356020676983250002,
  103575490129000230451297410164404326104415981921644449717043193548559653077710422303742093276018504126942018471121485040309487843908363950393490874999453857003838650688151717459037419915653203104200364474998070318406403546761422866751429034478937133852210460334806073945456710103247232585348023129031454404951212204050304277571566298458402939382095983426197028354432190665799100273116565341303648002626760477446481218025224254401980635900241832993631474615902314604434565222905022113352211545833720218564461730332345302162948151759070422020449728286820052010193120724160472812601821015169930103230017137213335639165040168678338731425227101653115366378487670015314258375427745440141795342761532306501398919237350666183013524966255040285910122679820282004791801113139183063640242010617786562377088440102780894870119729700911962441367258828008490790466053264910081916451433742072300771061562938240178007249594268635061460068281989887140541300625886499898986036005759768117987148720052086759006699527300453436529653396673004127069897955545130032793976452647217100356545532462613365003104832224988184890021771683854824913600227162254604910771002376055186982884040024683041291991516000252301254970228306002,
  109155081836136850451365890477993774904416808129577684795043203344459070862230422417845107112423304128247315920876384040324147984644784720393652472431594019803840398296920629353037438451279414333850364667731548837842803548725329370840278034498539931023394250334997658813929093703249065130285820221031471552189222459900304434451216053734902940784745062438199028366681403181283450273220989182266881502627628972287571807025231297144952191040241888640483397154502315032554851826435022116557031725124470218797712437216105902164597352779937886020461046681742946390193196053393876227901821500896610081751017140244610678618990168861228433225712701654180922668318621015320245841469539390141827747233837136801310060591601730145012533396582562798530122720212956816834701113324366598942900010625893627744285950102814710618707897100912096501164798406008495827924470821230081934337776170317100771659581871270847007251469505035412400068336883850088842100626035683969100074005763506873221371110052095326336461276300453614016554247963004127396974391855350032799200316703964200356614310553667734003104897545193965510021771862015812143000227153033664965295002375797733090887170024678718899886744700252246603716257202002,
  115027927955751210451437895463228698204417675964169892874043213623269110168210422537449388955804304129614132890623120040339483220273915880393821336948058579903842222612609224950037457780533059767320364868510069711155603550769105888112421034518918955909680180335196625140483063803250966323764356958031489323500146378890304596873579821531702942235461437982808028379337397820796590273328770327735071902628524472736708135025238551457822509970241945900490725566402315472636719243954022119848038330476080219036992255985544002166287464272970974020472634080595135680193273094900461261001821997162131645184017143338532273149800169047710038973905001655266315617252626015326338666087918930141860688998567117601310231885526935830012541949677897838270122761153391928898201113511876884244438010634094525592056200102848884483798008400912231849731032796008500908928395614160081952361555123114400772261627195295168007253355603343939940068392044765663034500626185456729984485005767257001153094030052103912085725852900453791728466899330004127724177315618330032804421475029652900356682983624510470003104962668520509040021772037929904394400227143804815662125002375540571392981170024674404340611000600252192066556660324002,
  121209055463820160451513601890217006904418587467778653584043224408158151443480422662812897508906104131045287368108532040355523743358804850393997785698149354203844126900000468530037477936336276695530365077658700203415003552895893721066899034540103903845509990335403247391669289303252938644824100338031507740753021818440304765026967967149802943735826906634107028392413127808832770273440012115554506602629447781361376618025246023403935028250242004818177919997602315924997683809875022123227428284084970219282448525503398502168019443027338740020484496492616399610193351885138550379701822504179884553212017146496303590870230169237848797658186601656371884982365068015332538544734058460141894176146807715101310405842349446622012550627136987247960122802648145955431301113701739396423578010642390187451435350102883419655226889600912368497231648384008506033776918264720081970523574207961000772867718320655760007255252604661821920068447473361718380800626335819140090191005771018506820786450052112516236956489200453969664709590864004128051505381267290032809639912457269500356751551671452094003105027595342390980021772211605104824200227134568132720242002375283701625228620024670097593382706300252137643134522994002,
  127714241488524000451593195160539405804419544780260562526043235723375365194570422794205344455042904132543722670626612040372301056500527930394182149248249429503846114558459228673037498952932717056950365295515204753265403555108953481735118034562125566009784980335617809867120235503254984658653737071031526826553355669530304939105830388590902945287473141252247028405921940935226480273554820920810397002630399723460272954025253719211895973270242065439235542559302316389963239572205022126697451369789640219534231973286411302169794266821693965020496640052499692260193432461288955027801823022167261267055017149719149094922870169431711044071472601657497975815123561015338847197484883660141928216878596251501310582499365027476012559430573875906080122844703844917733401113893979846927780010650781552426151010102918319345289296700912506453892663918008511202770565981550081988824639948447600773477874703887704007257160550130788510068503170365573114500626486772154482267005774791395178706670052121138772493808200454147824600089128004128378957245947850032814855613897883700356820014691749210003105092326034055910021772383049391049500227125323691446677002375027123522570300024665798637491388300252083333094417622002,
  134560049762033100451676869717234946904420550143495806637043247594299687865910422931908714227217904134112512851115674040389848027420950100394374772131377823103848189127298458584037520865938805803490365522430523696604903557411669460758325034585015868369020060335840607038353257503257107019465336039031546604266907820310305119310948164192802946892083194096659028419877591020819300273673306240814076602631381147674885563025261645279842891190242127810549121567802316867867047180824022130260411427810590219792496788447403902171612934853390558020509071022821451280193514861268193070501823551345725856156017153008314887051190169629364215152439101658644938535310566015345266369360010130141962819504204461101310761894331319172012568361620884541410122887327182810949201114088624183474834010659269567238534440102953586788846185900912645730000641367008516416211305455340082007265561784866200774092115847602528007259079480932695420068559136503999615700626638316724830554005778575671096982560052129779674556380500454326207455698231004128706531569524920032820068564340462200356888372683598625003105156860969812750021772552270715216000227116071566738762002374770836818838350024661507452297386500252029136082395969002,
  141763868794930240451764829473712282304421605906116647006043260047490951301180423076217806064363804135754868330155488040408198946287035970394576013418508207203850354291352041889037543712396917501080365758769269384019003559807554150453660034608807911950673020336071943898777684903259308473461464676031567098044209929980305305849630912998302948551393043111245028434294249699983420273795580782346499902632392926616650764025269808179817212620242191980228687894402317359051126968141022133918667574704080211005740069609710802073476468175819822020521795796515216540193599123741927281201824091940883980779017156365069056150570169830876866545509401659813129005851909015351797830642206070141997992445433807201310944065472754902012577421928783849180122930524922174629801114285698591762883010667855186275596840102989225243433165500912786335902896541008521674402545736890082025847152074785600774710461300372040007261009438289098500068615372503215627100626790453799400536005782371339361692200052138438925241293600454504812593270926004129034227014590440032825278748851667400356956625646131607003105221200523829640021772719277004066900227106811833086296002374514841246772550024657224017231562800251975051745981507002,
  149343951852353660451857288262434655504422714528448722001043273110743257557080423227440799279871304137474141762994369040427389585364843950394786247312483484703852613886761976042037567530830540264500366004910240299536403562300252927077573034633536014490197850336312136325260286603261591861897066176031588332845840631010305498935920029584202950267193182556512028449186518528264730273921760551214327302633435957510050638025278214662243218600242257997638997883102317863866056307715022137674635449015030211032910503323187802075385910144002023020534820899389217180193685288138627813001824644182553963698017159790702031855770161003631868938127301561002908608556595015358443377201386790142033744236923560701311129051485519309012586613166969906590122974303894666781601114485229497188515010676539371635251600103025237989369113200912928282007709536008526977649141098010082044570226093547500775332930656610394007262950463460823620068671879088875431700626943184323044030005786178404674943980052147116506524698600454683639329219502004129362042246469290032830486152575661000357024773579407995003105285345070128750021772884076158998500227097544564573604002374259136538033980024652948311795022900251921079734161726002,
  157319458814501870451954470304263943404423878587674466074043286813140694678810423385899842705454504139273834151099789040447457261094767190395005863765389696803854971906987849762037592361301498639170366261246953809692403564893548897677037034659235753496825380336561511451615354603263960124238997687031610334468479497780305698790797960503602952041330259201855028464569441423703260274051964944176976802634511162852039365025286871660515868910242325913430458045702318382671171340909022141530788483143490211060777482613579702077342326868583447020548152992688697330193773394663462497301825208304838968515017163286526943242480161024576052728108301562214644320783194015365204830822205870142070083527471915901311316891542551224012595937023640911920123018671001641575001114687243566573574010685323093172705920103061628329865003400913071578784535267008532326257393883550082063435602034764000775959543556456690007264902597747542360068728656986061172300627096509237190322005789996871654966310052155812400262383100454862686979526899004129689975933226610032835690760733912600357092816484410509003105349294982581480021773046676056134700227088269834881804002374003722423219900024648680315558824400251867219697380576002,
  165710500007773540452056610699386899504425100783228325614043301185115492904640423551931669311043504141157601208086251040468440898682927680395235269120283037703857432509046840316037618245469309355500366528188198191391303567591367917075976034685944010784343670336820408054395070603266416301426197984031633129571762583260305905642403692508202953875708755311599028480458517450478890274186316843303468502635619491088184246025295786295699941440242395779570766473202318915834773159567022145489659201921850211089357886932377102079346807678375693020561798875703642200193863484312417934101825784546200297413017166853879982691780161045927439358724001563448708793036511015372084039535246170142107019081370035401311507625298589323012605395205975230960123063633214730539601114891767709900024010694207328546995750103098399591132868500913216236764213510008537720535057339060082082444101010722600776590319685655063007266865882487341130068785706919274053900627250429479837085005793826744836188110052164526588190322100455041954859757483004130018026745674420032840892558625000700357160754363038951003105413050634903510021773207084546387500227078987717290861002373748598631878230024644420008163688300251813471287530895002,
  174538182096691560452163955940787295504426383942433868277043316258508724933470423725888237042304804143129259990266924040490381099307341720395474886778197885403860000019992762607037645226652746577500366806158604610190103570397783780739211034713699018514724190337089176951368606303268963539233554105031656745705963110210306119726254628670802955772292719699569028496869713953848430274324942712820053002636761917305923228025304965881343041160242467649377286686902319463734338537799022149553840548431720211118668980605478402081400465591589911020575765488422672100193955598886655119001826373149531825626017170494120774995030161067693348882208901564705480427507625015379082877951857070142144559779749290501311701292895261781012614989440310771340123109197576427385201115098829082053261010703193063267679520103135555122494948000913362266539178968008543160791338429550082101596547052764900777225278775435287007268840359056293100068843029612425674000627404945985541536005797668028669327490052173259051925243000455221442285068110004130346193357378090032846091531624416200357228587218104516003105476612400649800021773365309455525800227069698284681681002373493764892521220024640167369319727500251759834157946931002,
  183824656130740560452276764451269094104427731026393305902043332066633658112890423908137396958639704145192795802469782040513320210041136730395725157891397264303862678943643000053037673349893695844530367095599239742305203573317023599434041034742540406803868540337368181413089354503271605091742616681031681211340521478120306341285475032332702957733107548154664028513819480055502540274467972698510585002637939443945345807025314417928405058680242541577550169701302320026756735305527022153725987237584880211148728421044356502083504437795913145020590059914233833600194049781007102963501826974362235587165017174208632751758330161089881221837834901565985343457565787015386203247602671860142182714621941702901311897934966219724012624721472325690580123155371200676414701115308455084573733010712281290741686950103173098296493015600913509678763671116008548647336900639910082120893767111623000777864440602391660007270826068868028440068900625788829321400627560059685411585005801520727521477860052182009772965180400455401148570218689004130674474444662660032851287665184364300357296315053324033003105539980653209990021773521358584232900227060401609538261002373239220932640450024635922378806155800251706307963396883002,
  193593167844428080452395307145079336004429145136140394252043348644341870837550424099063589797900504147352369390173200040537302396598979040395986542083862362103865473967562461412037702662023378647880367396968219757033003576353473361802819034772509252940302000337657797587961876503274344324922408748031706555893449448920306570571031224162602959760241814575690028531324760518717500274615540729733327902639153101527915362025324150150306728710242617620206240530802320605298442459581022158008817138012310211179554267120029302085659886137580522020604689382673049090194146074129293385801827588436298528754017177998823531179230161112498621044352701567288688028212753015393447077279833900142221492726853750001312097592642315086012634593067220438260123202161273464533601115520673367417127010721473012320323360103211032508997856300913658484153943916008554180483866760550082140336591057685600778507824988361417007272823053373304570068958496171191291000627715771507097193005805384845676199910052190778732690042300455581073029583163004131002868686619410032856480944833569200357363937873314346003105603155765803330021773675239708181300227051097763949792002372984966478719580024631685016471010600251652892360075496002,
  203868110313226790452519868015224676804430629519068134401043366028092250049920424299068572138892104149612324429444802040562373719016873530396259518200054367903868389970314033256037733211731032399680367710741346399932503579511683691155593034803648132269215850337958414941232488303277184720323664629031732809761634058200306807841973722133102961855849154185733028549403009992895420274767784624119130002640403949403558363025334170468099982110242695834913665542502321199765775108806022162405112682803320211211164987702769402087867997619594828020619661272220976130194244522558441412601828215628370446888017181866125303256760161135553233416076101568615910277507644015400816323382965570142260903334353583601312300307556822875012644606009901142930123249575053416910301115735511830722705010730769237346425350103249361179318935000913808693488475266008559760545821656670082159925851681242300779155451800302205007274831354059574960069016641481602272800627872082374781648005809260387333609370052199565912362162800455761214977160048004131331374765111920032861671356177073200357431455683586647003105666138111474170021773826960578091200227041786819612661002372731001256249440024627455262230871500251599587005596685002,
  214675079072599790452650744747622685904432187575643181269043384256022991524380424508572173379496704151977195326612542040588582210379643660396544585083019591903871432028985333991037765049635133472870368037412765942113503582796375802996304034836001170795904740338270436708340207203280129878889933980031760004352067514300307053365686519704402964022150200233904028568072207647332400274924846195017613702641693076516557277025344487015762855330242776280727417574402321810575114352337022166917722309656900211243579470370603202090129984909252839020634983113149060530194345171464774091701828856199843125126017185811995220509470161159052871802924901569967412418974849015408312970268917580142300955806671822701312506121850708392012654762105164358780123297619872396244501115952998626590235010740170983201674280103288087750314213700913960317608176349008565387837815023310082179662384692671600779807340950168981007276851012450559500069075062441528727500628028993209173183005813147356610472180052208371293126872000455941573726583384004131659991364782550032866858884896043500357498868490540780003105728928063087250021773976528919799000227032468847832627002372477324989741250024623233096070587800251546391558986243002,
  226040929812035610452788249363278094004433822866419362705043403368026729571580424728013084796458604154451715340056734040615977958714681250396842262382947771303874605427001919214037798228357253974880368377495651785802703586212447670003140034869614099564278190338594280363077464203283183524889080688031788172114030053660307307418143702138502966261434575624891028587350872204270330275086871361759395802643021602190691489025355108145621762320242859018225555850702322438153142191142022171549561931009450211276817030289633402092447086855133639020650662590415559150194448066899111704601829510416930687204017189837915794263050161183005476854632801571343602825001394015415939030605320300142341659629815936401312715078177939279012665063177883148500123346303136105652301116173162160865058010749679275354050590103327215688500110300914113367416600633008571062676364119030082199547028722562800780463512394789035007278882070105810550069133759771804227700628186504927496235005817045757540293080052217194856013040600456122148591132960004131988717173057950032872043516747564800357566176301459722003105791525993322830021774123952434320700227023143919526805002372223937402739740024619018498042996900251493305680674575002,
  237993838760986920452932708889725744304435539119363237536043423405828928030000424957849682003916604157040825036997406040644613192175081840397153091397334707203877915662237457439037832802598646111440368731522911543764703589764980401406664034904534310867967890338930378101024551003286349509968818913031817346572253547220307570284173607262502968576062940960515028607258077381595510275254010262804378302644390676934084729025366042433904028010242944109546338420802323082937081577020022176303616434725700211310897419269387402094820569013717342020666707546612350660194553255808705359801830178550751184126017193945395296589280161207419118909493601572744896111238646015423696545727996900142383024414998463401312927219710843391012675511073194558790123395632324695292501116396031094932017010759295147405468250103366748484161685500914267853880152975008576785379456493520082219580625321824800781123986135738006007280924568620283860069192734192620991700628344618443483367005820955594073415680052226036581933657100456302938883745263004132317550880155510032877225237564452200357633379124504003003105853932274672520021774269238797918100227013812105225750002371970838217837370024614811448268651300251440329032489449002,
  250563365888695690453084466063034568904437340237505153300043444413069669676590425198560882178686304159749681098635141040674542367639755920397477635943940763703881368455431748769037868829219651044230369100047919435397103593459244843916629034940810916353136400339279177338733742103289631817340015802031847562361094277090307842257730740905102970968469100504221028627813467755700800275426417371846974402645801483264220741025377298686423587780243031618426184699802323745374941701323022181182941215927620211345840834996259602097251724185789158020683125984963310690194660786053334318601830860877409430127017198135968167952720161232301999907807401574171713222013585015431587586002237760142425059900079013001313142590145511960012686107656688443380123445614993372573701116621634347517404010769019641139530570103406689651462917600914423788028298195008582556266552690050082239764018961722900781788782219213303007282978549623904190069251986423521241300628503334667366836005824876870077114730052234896451686375400456483943917023862004132646491179089110032882404033255042700357700476968706093003105916147279434220021774412395662165000227004473475075473002371718027156687500024610611926935540000251387461277648830002,
  263780521045319320453243880061723285804439230306929836329043466435388986895110425450647037475955204162583665487532146040705822262863041000397816483267781719603884969758927861066037906367322032636510369483645274872042003597300708411594469034978494807074118390339641141229155050903293034566091614131031878855259744235510308123642175664199002973441162167627723028649037275055372430275604251616951600202647255236553605613025388885944402870040243121610238506479202324425925768631393022186190663740569460211381667930448346702099741872962801880020699926072375092180194770706421667214001831557678081105530017202411195430644470161257662455330389101575624481516762497015439614251187999330142467775951020250001313361233707248857012696854814597670820123496258773016074901116850001096499452010778853806569459040103447042728557173800914581180953769643008588375658588935770082260098057033873900782457920735907619007285044054781132970069311517183388703300628662654505870363005828809589335693030052243774445954076900456665163003249747004132975536765674790032887579889803001600357767469843964846003105978171379707950021774553430654009200226995128098839461002371465503940017140024606419914298819100251334702080753726002,
  277677833177328240453411327273995856604441213605121127608043489520515882167750425714630866114457304165548394991646746040738512072311190820398170244983432408503888725765740044861037945478334339802900369882911588131850203510129504215229399033101763871556480030321001674919380932803196562015641130664031911262228511028360308414750563075138402975996728791335306028670950334897793550275787676502793063202648753185896563217025400813490433920960243214152033425990002325125059901403054022191329985141367080211418399823494947302010229236428336376019717116142541141850194883066647890974101832269239098144347017206772665108076280161283508956162400201577103634857498070015447778670809048790142511182563357967601313583195156066110012707754453989722630123547571370793169301117081160780727421010788798701986166950103487811277697822900914740043812777463008594243877979815120082280583589850187900783131421820881437007287121125790535140069371327190440113400628822578862201058005832753755550582070052252670545305435200456846595454392121004133304686338536410032892752793267121000357834357761040118003106040004947391360021774692351375841600226985776045900751002371213268287640880024602235390680541700251282051107781140002,
  292289422755994490453587202099765139104443294609676088093043513718361193016130425991058422669004504168649731159990064040772673506828295510398539558053970199603892642918964499533037986226100404733490361029846629405446403410544812805853917033105829727999060170321040649747222935903110021857032479905030944821446197301940308715905938312491902978637835445499221028693574103978008780275976860236078155102650296614997659409025413090854581886980243309312578399841502325843259233679013022196604181846695950211456058106684028202010490457600002222019734704699099779900194997917428611260601832995852035422447017211221992650001750161309850110882768801578609613697317459015456083004526087840142555289863685296501313808519792225901012718808502959669220123599560570781323601117315143101848971010798855394006487050103528998885349018900914900387825216709008600161248620926890082301221470642785300783809305653434595007289209804384345170069431417162216730600628983108636041383005836709372340440260052261584730195468000457028240582118370004133633938599111320032897922729781114700357901140731547122003106101648354175150021774829165405559700226976417385263865002370961319918473030024598058336469385000251229508026076967002,
  307651077563869330453771917788995942404445478007404332085043539081114462300700426280500109168918204171893790645449998040808370897279490840398925085807933637203896727921545491536037102867697108793680351073095249471658803410976606663095923033110052711044794520321081089968920566203110400878413154580030979572348611484760309027441642516619302981367230782485167028716930677723503150276171975854226780502651886843082264853025425727820634055420243407162399768269202326581017481086465022202016607243096290211494664857221089602010757991545652013019752700418847221760195115310440028617201833737813798765637017215760821363744630161336694667479515601580142865169965353015464529442513904130142600108111151227301314037253461829424012730018910824553920123652234234593118601117551978026145968010809024957621547550103570609162296613900915062224274875166008606128095891524270082322012555563833900784491592456977186007291310132328032630069491787815575858600629144244723541153005840676443241253510052270516980966101500457210097697804694004133963292251655800032903089685553429800357967818767951096003106163101971538800021774963880296631700226967052185556839002370709658550541220024593888732120378300251177072504349039002,
  323800331990495930453965907317964010204447768703829105935043565663344981275070426583551728663882404175286955970921007040845671302324817760399327518995720976503810098774640975866036107289989938479440351118103783208095003411425518470265822033114438685748012260321123048744038892603110793736558510487030101555566824248940299349701626687516902984187748052886014028741042808425799040276373201357392488702653525225829774636025438734432497698870243507773825249284802327338840454348031022207570693372019090211534242647142829502011031982007569894019771112155006380210195235298355394173401834495426714294024017220390822851502210161364051515491250401581703843180459001015473120205842565500142645647698973503601314269442562452869012741387648319173550123705600302005013301117791695786379060010819308476245304970103612645743759242200915225564509641047008612144746657141570082342957703685363400785178302498899586007293422151419868780069552439866682443200629305988017309726005844654971706439130052279467277846727500457392166112546278004134292746003250430032908253646867035200358034391883561767003106224366170746320021775096503578163200226957680515033191002370458283900998720024589726558154642900251124744212660118002,
  340776549995204470454169624305095515604450171833107316456043593522107179599060426900835582984203504178835886735498939040884644620482818550399747576886905225603810542964698259198036111896653901223390351164941539164404303411892204353316549033118993728288061730321166581089681801703111200918277870036030105281347513192830299683040774887135202987102307593127933028765933923861289410276580719843904362702655213156330015844025452121000750058790243611221027397893002328117246338323280022213269952661473650211574814553689153602011312575795823019019789948940552358630195357934862749170001835268998619122096017225113697453806230161391929688075154501583293008496789136015481857546862712880142691919155966021001314505134048830749012752916707793272390123759666791589818201118034326883640251010829707041763222500103655112289499541500915390419941710315008618211529272198390082364057776999016700785869456090441646007295545903490489780069613374031000640900629468339406408187005848644961106946860052288435600954763800457574445137167571004134622298563805420032913414600079226800358100860092528033003106285441322841750021775227042754962500226948302441573917002370207195686137120024585571795159114300251072522822421008002,
  358621011901722980454383543968122374204452692768386423933043622717050543505220427233001616490107904182547531278135522040925363706648813530391018600840999477803711006116809944996036116695134659809110351213680463814099803412377344718087968033123724133285705160321211743942895842203111622926856685027030109138921897828170291002782523683900402890113919382753080028791628146413779070276794719649213735402656952066063384443025465898109343843540243717580068050725002328916765977078966022219117979693230930211616404169877017002011599922849235490019809219991595482420195483274682952185201836058842953430962017229931174699206210161420338364101712701584910828842703906015490743749594967390142738933148080792801314744375438586841012764608103410150170123814441801352913501118279902089214343010840221754581097620103698012483935508700915556802047793839008624328773582591670082385313640415766400786565073586560895007297681430402462560069674591023285421100629631299776341583005852646414731364250052297421930296209400457756934082232403004134951948646065780032918572531621423500358167223409832450003106346327798645010021775355505307605100226938918032689441002369956393621399470024581424423786287900251020408006383675002,
  377377005196562340454608164124363004904455337132616865392043653310534250715340427580728607676079704186429138816824075040967904493239054180391064359333622546903711489015732745664036121693168760004050351264395238440229303412881645116321954033128636421363132300321258596225085493303112060282591898386030113132777250850340291038443277018573602893225685673238241028818150312711597740277015394488431911802658743425905268665025480076622471736970243826928943777211002329737943165110952022225118453006274780211659035615279841102011894176297482220019828934710822837990195611373587998720401836865278853933911017234845013760268670161449286870276548701586557778991591745015499781130123514260142786700479964707501314987214818013429012776463871346699150123869933509372270101118528452446448852010850853723674049810103741350036252054900915724722369324418008630496810928273400082406726161765575700787265175385800544007299828774049849090069736091557574240500629794870009051434005856659335786023370052306426245766206800457939632258054261004135281694965616250032923727427998969700358233481851285929003106407025968747810021775481898692498500226929527355521551002369705877421391480024577284424753947500250968399438634390002,
  397089919510534520454844006236013939004458110809839432181043685367746718162740427944725410567780804190488272082056623040101234611613807940381112114350902447303711992477671161365036126898794608501230351317163379449026003413405837141396031033133737346955356850321307198908501773003112513523343968071030117267547615334150291075325309267058202896440803690240947028845525993792312170277242943602545831302660588747155321062025494667691593417880243939347632358292202330581334944839025022231275136937169970211702733547016025802012195492524320650019849102690999165790195742288419636870001837688631248750995017239857003915951700161478784683289600501588234340861468333015508972036993869080142835232096531029001315233700847898403012788486069994863970123926150174442180901118780009272632149010861604066635646280103785128680512622500915894192512663378008636715974145803650082428296211797013300787969781930156009007301987976357770150069797876347178682100629959050982908097005860683727395108910052315448527149600300458122538974706296004135611536240887000032928879275790931900358299635433522465003106467536203509320021775606230341948400226920130476845373002369455646799895090024573151778844899300250916496794586957002,
  417807345970651040455091616502418771304461019956967842079043718956830266593540428325732247926651604194732820464026314040105877104563336500381161950412084756203712517351496109565036132320363850465680351372065342228259703413950679354755627033139033906381017210321357615084868147003112983205106049144030121548018406381050291113468824451717202899762568411224913028873781515808517070277477571908401754802662489582592160689025509682762628716750244054918140314560202331447511910501746022237591883498059190211747523170950400402012504031231980005019869733718528080620195876077108283708201838529230953713610017244968965020443480161508841431991981301589941003611082280015518318851614886500142884539084545873701315483882769401209012800676780164542230123983100136720815901119034604160880372010872473909727183980103829352175771016000916065224149307001008642986597570893700082450024664176820400788678913704940945007304159079281968470069859946104676153100630123843572703332005864719592600762580052324488754121493000458305653542031386004135941471193157550032934028061649895700358365684173993715003106527858873052190021775728507664223900226910727463071254002369205701469879980024569026466906719900250864699750975947002,
  439579181117730430455351567001363518504464071016087574200043754149011114273340428724522058355148704199171013693779053040110726522252806120381213955503915136103713064520009152127036137966553160690430351429184628670709803414516958244055035033144533346180839220321409910036209474903113469902590843560030125979131150717970291152915296128841302810319437542045965027902943981288429560277719490152548468402664447527554095983025525133583320595610244173724551505910602332337058518579039022244072634292997050211793430253112358002012819955506727206019890837777074541900196012798692246660701839387414770117194017250182747978542450161539466899600807501591678263737149310015527823988665033480142934632674229708801315737810409977538012813038105287926920124040791818381540901119292268982032769010883464387927117320103874024306183316500916237829016092707008649309017040928670082471912395489434400789392591238652507007306342124808372810069922301541901575300630289248649642926005868766934363195820052333546906247802000458488975269652122004136271498546562370032939173772301766200358431628090963653003106587994347258270021775848738043621000226901318380246751002368956041143515820024564908469851483600250813007985850006002,
  462457735593525370455624456881534328804467270727292904821043791018734920524830429141901899477605504110381143607928744039115791819962966280381268221218332538003713634901253964639036143846376462835860351488607898487104103415105489214048964033150243171732268720321464151307951666703113974209835641409030130565988368192060291193707505751285402810673972384344014027933041290965372210277968915069033884602666464221046472444025541032210771706290244295853076825293602333250573404872914022250721422473345650211840481131334571302013143431885629225019912425051249546810196152513337254318801840263525583942150017255500235227657580161570671025932348201593446625172727148015537489896502977490142985524240874029001315995534189353280012825572171625299200124099233724268057201119553035886555516010894576644980637020103919148881119983600916412018915404945008655683569897477050082493960285236454400790110835102835681007308537154952659550069984943369939148600630455267081339486005872825755560799910052342622962985820800458672503466980844004136601617028095350032944316394545565700358497467203503439003106647942995764750021775966928840529100226891903294058470002368706665532184120024560797768655513300250761421178565157002,
  486497847810018980455910913608363711404470626142084985887043829643808108706250429578714409456573204110866304131821815039121082328881977850381324842895447403603714229449876749863036149969197591718790351550425084436953303415717117611309607033156171156149044630321520408784361739703114496740826092434030135313858599210690291235889582137426602811040221936282391027964102166190546230278226069541250782402668541346876262903025557391019158367650244421392105009559502334188669708379126022257542374732968820211888702727116167002013474630424531696019934505930358001580196295282356301106001841157912466561844017260923341226511470161602463909663739901595246599386740909015547319057582514570143037225306473281301316257105125547755012838281128472278860124158434442553356701119816937306454151010905811833449395770103964729735278050500916587805715380837008662110594988775630082516169215836076300790833665911947087007310744211759817030061004787229911409200530621899731805122005876896058990256610052351716903684775600458856237443229446004136931825367614460032949455915253232700358563201531486083003106707705187960210021776083087391496600226882482269834026002368457574346490460024556694344359114900250709939009778209002,
  511757002822714930456211594265585313304474144637354745836043870105545207406160421003583932919232604011373516790998425039126607771391767040381383919772000631403714849158537355927036156344743414114150351614729511609851703416352719783877671033162325349474743930321578754766399953903115038130139261540030140228181582286480291279507042076799202811418557731803311027996156171943849450278491182767929938402670680634814529931025574222707625869960244550432254590818002335151975402084962022264539713343973270211938122557714353302013813724767274097019957091012210745070196441168229810369801842070930776957781017266454012950623570161634855810623643301597078705484671001015557313988871880000143089747541372173501316522574840946946012851167148368534580124218402645402491801120084005957194472010917171114761383160104010770728793496200916765201350115625008668590432672208030082538540072622461600791561104323217724007312963337303706860061011108903898445500530789147461444381005880977847366652910052360828707586380300459040176507419296004137262122297846240032954592321369416100358628831095581214003106767281292980480021776197221009292300226873055372543867002368208767296275830024552598178066320800250658561161440109002,
  538295456639350500456527186914914906404477833929975368484043912488922458171450421051419508764474204011903755519053165039132378276955808460381445555135506048103715495059372920895036162983117424053780351681618020894118403417013204176990625033168714088179607710321639264052057833903115599033606537761030145314573585958210291324606832103530402811809362589072507027102923374045784020268764490433380674502672883861787404674025591540308369106470244683066427012220202336141133630830278022271717758233754450211988768748468538102014160892216161791019980191107001730620196590234626120368201843002942265461585017272094230394658510161667857152112106601598943470310414251015567477242277475420143143102765928451301316791995568426370012864232427307960200124279147089639138001120354274839631961010928655659260940570104057275747353662000916944217819867495008675123424816752770082561073743845065700792293171036514863007315194573686624800061017459429833287900530957011127047195005885071123323591920052369958353825391500459224319968390982004137592506554390440032959725599911275900358694355917249920003106826671679704740021776309336982976500226863622666803255002367960244090628430024548509250944639300250607287316789477002,
  566176366205478560456858412016377737804481702092030128101043956882737948099590421101474045281226004012458036001420300039138404398631207590381509856484286477803716168225515929509036169894813829153870351751191096774224503417699512466068613033175346004970247910321702014019258136703116180128996983064030150578832899486420291371237371469611402812213030937839438027106336619547036130269046234882082130602675152853096244102025609357194902636740244819389860932747602337156803056374410022279080929104141540212040670045361130202014516313803716676019100381724125140470186742546422298162801843954315179045588017277846007081730070161701478523250034001510084142854933292014577811405072066050143197302952191345201317065420157524908012877479184950346490124340676617416127801120627777241949911010940266646258940300104104248702309947900917124867191262776008681709914805427840082583771120667933300793029886794203746007317437963038864970061023838878515850100531125491581781938005889175889413312260052379105821430172800459408667134814251004137922976875724480032964855737968279100358759776018739466003106885876716751850021776419442577961000226854184216874018002367712004437895370024544427544224789700250556117160346026002,
  595465925318658590457206023911906583204485757566702396452043100337977853570300411153847625099880804013037417410791630039144697130228765230381576935693620678603716869772668629907036177090732145022720351823552999602699503418412620728172021033182230038922096250321767084711394751803116782116721721277030156026945486812530291419448596350642802812629969155840937027109858577712156710269336665297729121002677489483667632564025627687090524291940244959500187745458802338199658209808055022286633747593401180212093855827819047502014880174365726153019102798066181723320186898169725285560001844925424368179892017283711390579727490161735730681358473701510277312283249726014588319100327458280143252360225595659301317342902080668735012890909664834509770124403000156889713301120904546741605925010952005264083094280104151693530790489300917307161597500180008688350247537709290082606633097168922600793771272381007862007319693547518279470061030247320666877300531294589675188529005893292148106802010052388271089323243400459593217315197428004138253532003207290032969982722701998000358825091423078263003106944896772476290021776527545036074900226844740086666496002367464048045693800024540353039200457200250505050377904100002,
  626233506733987200457570812374947219604490009184855757652043105207699384943060411208644715710456804013643004212388040039151267924145609060381646909188226533003717600860735829365036184582192315413590351898811902497360403419153540653187135033189375445944793170321834558925593182203117405720559987775030161665090808427450291469292005317812602813060595914486496027113492566751165690269636037886840879702679895679333920424025646544076976620620245103497488334906102339270389851458758022294380839481926500212148356121760315802015252662615613277019105269283997248710187057171893382332801845916651395278943017289692463024766480161770624554368156901510473910384213962014599002987351721920143308286866671731801317624495439446402012904526134592926990124466126722897751901121184617207287054010963872710128415630104199614195813037400917491113238555087008695044769431933070082629660570338896000794517348623868905007321961369309840540061036684826927135700531464306253171737005897419901793917750052397454136321838200459777969817897405004138584170681084260032975106541345908600358890302154070723003107003732214964570021776633651575631700226835290339741354002367216374620922830024536285717228034200250454086656526294002,
  658551810734854000457953604228920784604494466182333288461043110307567764909940411265974355877968804014275948041802664039158128709895846710381719898121313537203718362695518154057036192380950376340370351977080033019200703419923320796031678033196791809590990160321904522303774264903118051688407474722030167499647815891150291520820706110530902813505342534067523027117242001693584260269944616067041774702682373418144998708025665942603310479340245251484351099322802340369705338436402022302326936942415880212204201612890001702015633971220149073019107796547555429110187219621558071341501846928384644757384017295791341651841480161806171243259540601510673993041832671014609865762130979110143365095312771339201317910254970935253012918330886167861870124530065417641764101121468022800873444010975870190907826670104248014686397937900917676734381383594008701793828427681950082652854440080858900795268136391805375007324241470625200490061043151467856604900531634642157994283005901559152783500120052406654941138461500459962923951129043004138914891656490620032980227181205182200358955408236291947003107062383412031180021776737769391490900226825835039311404002366968983869773930024532225559726373000250403225684536986002,
  692497020454660920458355265037513058704499138218006258052043115648165685218310411325950349739163004014937449658237788039165291913365642350381796028560446127303719156530467931942036200499214683002980352058473819791526803420723047871214853033204489052219372600321977063426606401203118720793047626754030173537201123890850291574089463745138202813964653348739904027121110397081357660261026267066012655502584924731712027169025685897494955207040245403565931263983002341498328999970164022310476880835375290212261423660249883202016024296876529430019110381050118202730187385588646190447701847961019434716581017302010179332767810161842382024533739201510877616966686557014620910157775811700143422798159809664301318200236054079221012932326236028995010124594825431372894001121754797979410687010987998922102913400104296899017681261500917864037360125993008708597773988153510082676215609209052400796023656595771528007326533893702253230061049647313933671100531805598228270392005905709903303498120052415873482381440800460148079022974811004139245693679456080032985344629656488400359020409695082878003107120850731215190021776839905655126100226816374248243516002366721875497742700024528172548176529600250352467151516062002,
  728148964247436720458776700869884167704410403539260372909042121240548853878150411388691468886956404015628760976062335039172770476820073490381875431680467800503719983668509930647036208949662718984560352143114044225971203421553848091126551033212477446523026260322052273910433933103119413832946558815030179784547364845630291629154749995982502814438986081534904027125101369732940440261059048009002465602587551706583848212025706423962999884930245559850011512532702342657002520690020022318835623050785590212320054310026300802016423840390838985019113024008654715640187555144402456191801849014958130283582017308351165121500510161879268352714642501511084839706845302014632138944972309140143481408164023419601318494494716118634012946514525392561300124660416043081747001122044977497090623010100026012861481820094346271231028001500918053034576310210008715456957102511320082699744983447999900796783930188514056007328838680804694820061056172435554324200531977175298959175005909872155501085660052425109738555484600460333434341394330004139576575502908240032990458874147786400359085306556545146003107179134539776360021776940067514687400226806908029060317002366475049209639970024524126664121525000250301810748292541002,
  765591285418083430459218860144021930004410916826835582664042127096266526161630411454321662760835604016351187177727440039180577879690126650381958243963744918603720845463929259619036217745458507839370352231125997526423803422416888549474284033220767627434612190322130248507271903003120131633072287564030186248701731208490291686074794286112402814928812229660019027129218641580326530261092833058578111502590256485656835449025727537613690303980245720447063963709102343846485332009689022327408228896798920212380126309620724402016832806757924939019115726664277557450187728361412344305301850090610258623954017314816524806923520161916841862882591901511295719658908201014643554932437821780143540938243745319001318793087639072116012960898120442010060124726846621192172301122338596407240781010101265504461529220094396135394145471500918243738499054819008722371730288216650082723443471431511200797548978164429763007331155874221583740061062726903031357500532149374201358200005914045911442788800052434363688062239800460518989214233950004139907535882677150032995569902198129100359150098847536000003107237235204691640021777038262095066400226797436443942124002366228504709602000024520087889166081500250251256166938332002,
  804911619636197320459682735551595444604411454788948476339042133227382900016860411522970277673567804017106088911189773039188728160169208110382044607407998065203721743324328823514036226900270647839570352322639643147276103423313378651328592033229370604420142620322211085207959918603120875045738985641030192936904710740370291744909636025721702815434617460357098027133466042580840370261127651638967359502593041269618937008025749254458146302530245885470313521075102345067555011768832022336199879536325010212441673121987578402017251405242703273019118490282686357050187905313625331856501851188392625649395017321408521473184720161955114373239896201511510316079171383014655160967381420880143601401481194857601319096072166270751012975479412550168290124794126624258882701122635690064322224010102518491359786500094446495601196683600918436161665271630008729342447593342610082747311984701610200798318821559420493007333485516266899110061069310786593564800532322195763096949005918231173114600840052443635309200831700460704742949235823004140238573577498320033000677701397450300359214786595663234003107295153092651400021777134496497963200226787959554728659002365982241701102230024516056204976389600250200803100761991002,
  846201780371413230451016936606780742504312018580357911450042139646499411175520411594772284817574904017894884575113356039197235937649647450382134669741998613003722678712658798538036236428290991371570352417789784888341003424244571591286826033238297774173536430322294885348570822003121644951476990633030199856629020200310291805721178437656202815956902017593528027137847513705563960261163533997058898602595908318428701292025771590922304330610246055035802624635102346321007692299041022345215874472417410212504728940244117602017679849462922159019121316154618858540188086076378506657201852308729434445286017328129456067690520161994097887708641301511728689094923513014666959935969155640143662811124285767801319403506308945499012990260818502967970124862265601669141001122936294125936412010103785098842919470094497355972914025300918630316679868206008736369464598873160082771351437707464800799093481450749342007335827649279103640061075924156384952400532495640808130774005922427942422115250052452924580168434600460890694854047738004140569687349017050033005782259406363800359279369829280297003107352888570056030021777228777801946900226778477422920867002365736259886961100024512031593279855500250150451244302487002,
  889557952702392020451067983904988629904312609408388824312042146366777964587390411669868517607099404018719052695237923039206116436030726560382228584649417458203723653149320683350036246344253991139370352516716240814178103425211765881306131033247560933724450860322381753720172171003122442259929316824030207015586743001000291868573243909987102816496181139866131027142367110006296860261200511224278407402598859952830073935025794563857090062760246229262457432762202347607658477075733022354461634083337780212569328702556931602018118357473404810019124205596309583190188270726420548583201853452052405436598017334981667976824580162033804598561012001511950899715870376014678954763794097840143725180588450005801319715448752867274012100524478072467670114931273194348293901123240444554840228010105065453140052600094548720656712891800918826216215949894008743453138420982450082795562747804228400799872978956894719007338182315620701200061082567082463941900532669710156734513005926636221190645200052462231479060817000461076844236232237004140900875961791780033010883563955970700359343848577481347003107410442003012340021777321113062524700226768990109682717002365490558969357730024508014035864853200250100200293323099002,
  935080895866813860451121529242801323304313228535257530103042153401965140295020411748405918726332904019580134395432877039215385507930956780382326512001123399503724668214348567293036256663456736101350352619564023192036103426216306929810331033257172293972301240322471798682041785303123267910775442363030214421736676561850291933531630916984602817052985489407053027147029003763009080261238615279015908702510189855590378485024818190548826095220246408272155464278402348928341866125452022363942702208233280212635508107310023602018567151851796979019127159949956198700188459341936088451201854618800898318013017341967535609501900162074246889082563701512177009845690196014691148416351246640143788523458478526001320031958865040425012102043376750468620115001159135469247301123548177620969777010106359681427931780094600593826805494700919023873015021499008750593827713295300082819946835251849800710065733523740429006340549557677796960061089239634802580400532844404625496363005930856011165352310052471555983872892000461263190403275901004141232138183297670033015981602847633800359408222870096028003107467813757330040021777411509312202100226759497675842937002365245138649839400024504003514580486000250050049944805219002]

/-- Rows from 1000 on. -/
def besselRows10 : List Nat := [
  982876154935198750451177691699263479904313877280496876230042160766417413340100411830537797267620804020479735967083920039225059659838482260382428618096238845903725725549670346358036267401779700806120352726483524648490003427259588673720848033267144493659740720322565132278441259003124122874683163438030222083291895228530292000664172550697502817627861593086296027151837487713784280261277879009617495402510502657465615493024842488729879799370246592189794730609302350283912190359335022373664748784354110212703303628559272802019026459785843327019130180584193709560188652002570449556901855809422035769317017349089476988642480162115437336268759701512407082293720567014703543899517318380143852853490378994901320353096700450201012103583027322584920115071933251165993101123859529903472829010107667911836099150094652979684314793300919223299887188684008757791892669129230082844504623213839600710144657149274792006342929417859657230061095941883285753900533019725027311920005935087314011373410052480898072499278200461449732662598568004141563472783930040033021076363952796900359472492737684957003107525004198518420021777499973560552100226750000181896803002364999998629332860024500000011336344900249999999896942322002,
  103305428200775770441236595878227671004314557023485407314042168475127428861120411916424096358665204021419531540596873039235156078234726040382535075912271436103726826861451711332036278575708232577650352837630710751447503428343055265115027033277490613799278570322661870359054474503125008154289330342030230008727534784920292070040796706499702818221372295313546027156796978369299070261318336177954836102510824652164617223024867476589556532570246781143364388727202351675244055006506022383633572536764180212772752531778309502019496513162217405019133268894576590140188848789454777376101857024370828980154017356349950350660480162157388713555152301512641180786778596014716144260035473960143918184613250417501320678923008863774012105143681859436690115143605461251000401124174538292749725010108990273452083950094705882457388479600919424509711359067008765047695023720700082869237037755971200710224070896417032006345321938598266850061102673897710398400533195672171378030005939330131313947720052490257722734839300461636470321562689004141894878537007840033026167835212762400359536658211534373003107582013691782660021777586512794274500226740497688007906002364755138608154060024496003508102259400249950049849133864002,
  108573106735034780441298372157614386804315269206084867094042176543751375150920412006231671692857804022401265862942732039245692656727656610382646065364651292903727973922525828030036290202354801805760352953167319230656303429468202814266383033288224192567118650322762132703201120403125924785210302072030238206788804746870292141733587967036802818834097223249070027161912019413932280261360021483586160602511156097665170319024893172785243501500246975264016946075502353103232792324911022393855103721509020212843892889900821702019977548656930753019136426304068978740189049785231562934801858264110305007666017363751454753066990162200113993581548701512879369981115169014728952586005011720143984530931174984501321009499241686078012106725595087124850115216185779936691301124493239992503080010110326896326606600094759306401313125100919627515435442906008772361598056432240082894145007844962000710303976893354209006347727162347891100061109435747784724100533372246863187043005943584464578548640052499634912275245500461823402687482252004142226354218776710033031256004638500500359600719323651607003107638842602020820021777671133977264100226730990254009844002364510558286018710024492013986908063200249900199501979312002,
  114102778090327550441363156949596934204316015335390537107042184988637499125060412100134581392645504023426757185314041039256688024232362580382761773576015107603729168574911728492036302299482041422300353073261066056660203430636581190875851033299359240678714310322866043147938421103126873837082979125030246686499234787890292215816851230150402819466633264640878027167187285195644380261402970588522715002511497258837572503024919596453809681850247174686142049255602354568794923769181022404335406923221340212916763599664416902020469807827346424019139654263543055220189255074080565185301859529111635989545017371296530690272390162243626350990533601513121715474504865014741972007376074520144051906725127098001321344887558869796012108329024410532850115289684316560827901124815672521795981010111677911478796860094813255798628399200919832330076553429008779733966592941160082919229465347083700710384377272321133006350145131584632520061116227503127433000533549449904520994005947850315231012760052509029618717523900462010529067632169004142557898608412590033036340860310434200359664676106760033003107695491293820220021777753844050673400226721477939408007002364266257362052470024488031429843356700249850448557272116002,
  119907142461506140441431092972175890504316796986599092899042193826855810391250412198314387652302504024497900265113728039268161574237990380382882395155590310703730412732424535072036314885526602513690353198085858605202103431849795885358991033310910257260977730322973729720167519003127856414637298758030255457169161819490292292367177127531702820119595058613531027172627584306823800261447220142615025002511848407619348350024946767223267305890247379547441888957902356072868631800316022415080683908166550212991404398261264102020973537205823221019142954252285727040189464741745138163401860819854270238184017378987760717701000162287939165260710301513368283818472725014755205696449419750144120326454899791401321685150835880627012109954229936787300115364111276315975801125141873717118780010113043450901426250094867734959241385100920038966721206889008787165167007408880082944491345026739000710465274169585338006352575888805989930061123049233266940300533727282093445741005952127684617673060052518441819560601700462197848769257038004142889510488024680033041422390378247300359728528594294190003107751960131454230021777834649932978300226711960803381282002364022235534800790024484055819057255300249800796717993791002,
  125999499607232920441502329532626923704317615805998846050042203076229021910020412300960470623307804025616669486652461039280133495201480750383008132489044706803731708383380743207036327979623853875410353327822016141084403433109509932109331033322892246236499680323085324772864195803128873658801099207030264528404464409190292371463509281937102820793615499740874027178237863258334080261492807809573544202512209823194149583024974705224700528910247589989008254007502357616414241521419022426097276533733390213067855880300730502021488988395016355019146327778513743170189678875558968367001862136826065237697017386827770084291930162333066023575010901513619142530658973014768656868381265800144189804761048590101322030352670717396012111601474498874690115439476960982907601125471881734464435010114423647566154190094922748220540982900920247438525522064008794655567224630100082969931584544978500710546669725432017006355019476530417620061129901007640599600533905744224305360005956416574005486590052527871492205858400462385361099580262004143221188642658090033046500583060665900359792276820395136003107808249478878950021777913558520039300226702438904783764002363778492502239150024480087136758173500249751243688308008002,
  132393776391708370441577022823325858404318473514087437964042212755364777139520412408270355023500104026785122105096052039292624802110040360383139196039180079403733057593401902125036341601633454281180353462656497863374903434417445896722089033335320733235640730323200965125557346703129926747838288648030273910115551428730292453187213452320702821489346255745446027184023210249074920261539772293638769002512581792174934981024100343110446706740237806155401268650002359200414712334737022437391669715427670213146159515089607402022016418164862813019149776379897376880189897564473228632401863480523422572585017394819227373519780162379020723724528301513874360107323618014782328781693308590144260356466853089001322380557390988301012113271023679420330115515791769668090901125805735051412886010115818635428788800094978299947512478900920457758715419766008802205536722173710082995551124457984900710628566084148955006357475937296883800061136782895593937800534084837087716662005960716984582173520052537318613957683400462573065365813122004143552931860297440033051575426645265100359855920819905459003107864359699730070021777990576685168800226692912302146484002363535027961782650024476125365213567300249701789173554708002,
  139104555556300060441655336230475250304319371908822249865042222883689215453910412520450049968852904028005401618365659039305657369255714170383275804657860811903734462508320138061036355772165827098050353602783138760745703435775387929214765033348211783052746060323320792209181535903131016898521273492030283612526611950840292537622148616966502822207458299171639027189988859033382480261588153366915929102512964608791524966024103296603667856610238028194729846687002360825876139806788022448970494452378900213226357664235029802022556088551276300019153301624092786460181012089908415339201764851451424807145017402964845152994800162425817277048114601514134006035991377014796224738787884570144331996580296149801322735830061042466012114963145834623910115593066199545203401126143472469223515010117228549434561220095034394532852126300920669940586821570008809815446532491500083021350908215504400710710965394011303006359945313664429710061143694966379880500534264561470563655005965028917456350090052546783162024013300462760960875163591004143884738931869560033056646909488262100359919460628364632003107920291157319590021778065711279192700226683381053679067002363291841610296070024472170486749713100249652432880244249002,
  146147105774428750441737440656278657604320312869009008834042233481481929692910412637714402546242904029279741271873433039319253964267050350383418185909582825103735925357189088162036370512609567924150353748402893534359503437185183885351819033361582017663288940323444952215434207103132145367338633651030293646185133654610292624854740046496802822948642453392101027196140192888690300261637991897390027702513358575082629985024106333173596573470238256258733897883402362493828267944010022460840530912461070213308493599575952702023108266956581176019156905109283200850181034897166104205601766250123974344837017411267380632772010162473469911408227901514398150808238821014810348086468383400144404740296060991401323096236489157913012116678112118356430115671310846600658501126485133114936503010118653525523413100095091036397081845700920883997505848403008817485669245015490083047331882159234900710793869807266316006362427648211727020061150637289157989100534444918155991968005969352373657663440052556265113516890300462949046934845194004144216608651246100033061715020014308800359982896282004218003107976044214632680021778138969130517400226673845217271452002363048933144103500024468222483751468200249603174516051625002,
  153537413045288370441823514855130950304321298357834286233042244569912371772880412760287465664845204030610467701152518039333438283444418340383566576407101824503737448455403929230036385845159816884780353899724088853420403438648747518239938033375448634819207440323573596250771432303133313451739055417030304021971697158200292714974054419638402823713609953313463027202482748685900780261689329877637134602513764001092452790024109455047053432050238490502868322218402364205325012077026022473008711578096990213392611521448635002023673226251712471019160588464729053760181058187617469600501767677063934292411017419729636332459960162521993074203383401514666865932625108014824702216464909670144478602997546290601323461843234786089012118416196506418300115750536406383202501126830756443482832010120093700635299160095148229988664030400921099942909018714008825216579008238570083073494995521144400710877281480118026006364922983536637310061157609932993695800534625907923403839005973687354136927320052565764445452999900463137322852085812004144548539815246700033066779746716291600360046227817743096003108031619234324470021778210357045190100226664304850495590002362806302258997790024464281338662035700249554013789810697002,
  161292213484318480441913745784416352004322330426547812355042256171077764457930412888402880744224504032000004717626723039348234988447210700383721222159554413803739034207934309945036401792847628259720354056962684216908203440168060742427654033389829427240205150323706880495180001903134522491412561020030314751110053898130292808071877036020102824503093021156235027209022221064984680261742210454248257802514181205071966849024112664507551810770238731086388828015602365961444992557778022485482124453850130213478756577291900902024251244880210384019164353351327202390181081970832629532701769132803271351794017428354460757231910162571401435417559101514940223947767214014839290565965261100144553600258899341601323832717615853026012120177675820958520115830753674757592001127180382239802817010121549212715502240095205979784116436300921317790303446213008833008551531768450083099841200421777800710961202572711838006367431362255769260061164612966857544600534807531548452458005978033859766260520052575281134754227200463325787934136624004144880531223640930033071841078155125200360109455273182769003108087016578717230021778279881806966000226654760010607060002362563948650250490024460347033982738100249504950411508424002,
  169429027570779650442008328970530133604323411218300768164042268308042579663510413022304275818275204033450877242958337039363669744382886300383882378933520787103740685112674124017036418379570371183800354220342541703755903441745175972811510033404742802419321590323844966365867526603135773869610102787030325845177495378190292904242791181683302825317845457693836027215764466718380100261796677957982476302514610513684975600024115963896663528790238978172439611097802367763292079477224022498268016336924900213566974880597939302024842606964037988019168201462179366060181106256557672128601770617883200769043017437144749082845290162621709890706987201515218298435561409014854116618151262210144629747847067469101324208927716117735012121962829755056480115911973548662318801127534050620973348010123020200719963460095264290288127143200921537553267037278008840861964088372330083126371451868498500711045635249119078006369952827004037530061171646459624434200534989789803037133005982391891339227080052584815158248197300463514441488280642004145212581679151860033076899002959544200360172578686602798003108142236609796870021778347550177368900226645210754546771002362321872012620480024456419552272781300249455984092279207002,
  177966195915314730442107468890765068604324542972146460080042281004879645993170413162245679656069204034965715397612731039379769259349595460384050312627493139203742403763912193436036435630123196260010354390095704902535503443382218540721072033420207803061616150323988020686016368503137069014502619124030337316115521820800293003584259704402902826158643249344250027222715508784829000261852777934666419902515052262219059530024119355615415467130239231928142932660502369611995948616025022511373796151724660213657313530214667302025447602411251718019172134523169924790181131054717633099501772132854333364530017446103443849773610162672933564524731401515501164034552312014869183902740482050144707061723867808801324590542392588131012123771940897466450115994207026871459301127891802038343774010124506804620624710095323166033669616600921759245448687959008848777195515999390083153086707753675800711130581677321462006372487420434221840061178710480072862100535172683455298020005986761449570972580052594366492668826500463703282821841501004145544689987457890033081953509825909000360235598096955896003108197279689210350021778413368895758300226635657138942594002362080072040364480024452498876149023300249407114544399167002,
  186922916612991970442211379371729758904325728027210036657042294286712950625570413308491952523037604036547258749481428039396561325485936150384225299660229752403744192855928064831036453570231604027930354566462687320644003445081389189624149033436244128175330850324136215858750971003138409400580676815030349176240818434070293106196708857145902827026285191516526027229881541356330490261910557176857402502515506794801519170024122842125717826280239492524690633774702371508712648839911022524807038349598880213749820630005356402026066527025552908019176154293553208240181156375419518991001773678276824669748017455233535666547880162725087813283341101515788896453450392014884495996533397840144785558048075480001324977631282994339012125605294757524910116077465210760518401128253677279680205010126009165410785070095382611582117817200921982880568480489008856754626219774310083179987928852830200711216044029195426006375035185216522690061185805096884171700535356213269611056005991142535098364140052603935114656858200463892311242191966004145876854957195090033087004587517987800360298513543863442003108252146178262290021778477344679389700226626099220111034002361838548427245170024448584988285758000249358341481280564002,
  196319284250108380442320284004993543904326968827034175611042308179762203237670413461319234230020004038198360728626535039414074861583370920384407627373492010003746055186717269846036472226585152465870354749692770583055803446844966652975192033452872154835533070324289730046473059203139796550095860623030361438256547786300293212183614469921802827921593528626991027237268934100988100261970063756288194102515974464620426789024126425951824702120239760137437626421202373454625181164273022538575486375002850213844545308872011402026699682617752577019180262566550432470181182228955376934501775254720526201473017464538063922437310162778188228556159501516081572484800257014900056523966049320144865253177530507401325370264813320665012127463179790224060116161759305076529201128619717471318813010127527425110471870095442631523361456900922208472417879563008864794638173993030083207076078822755200711302024480496564006377596164038122420061192930378641805400535540380006583128005995535148480135600052613521000760419200464081526056762681004146209075399960310033092052224866764200360361325067610884003108306836437912360021778539484223481600226616537054058829002361597300866541290024444677871414467300249309664617466151002,
  206176330635821190442434416580680390304328267924107936880042322711389232181860413621015410141095304039921993214420520039432339957318696250384597594449677524803747993661850534481036491626872341800580354940044312739388403448675310316794943033470112960640730590324448747355722647503141232034545094530030374115263966915050293321651590511147902828845414611205325027244884237004545980262031347057111432302516455634150898731024130109681827653300231003494599739992602275450944089704533022552687056199216270213941537741148259602027347377119177513019184461169956408810181208625805411450401776862765138895492017474020117509545550162832250640317535201516379270018800134014915869157668207860144946163671263372401325768514205395484012129345887421448560116247100618712163601128989964080327525010129061726771823830095503230475921281500922436034859928078008872897614924078760083234352124199552700711388525210843808006380170399602742440061200086393830559300535725184423047229005999939290197026950052623124127435557600464270926573050779004146541350130312670033097096410770228300360424032709143023003108361350828772160021778599794201276400226606970696484589002361356329051055750024440777508323609500249261083668623640002,
  216516067332694430442554021539764083304329627984586269483042337910146285924370413787880595837202304041721251301593924039451387919166086700384795511344881447303750011298471582626036511799816716240540355137785067009015403450574862969658412033487988346883629600324613458027728007003142717476199118342030387220774378098840293434710480101757502829798619570525030027252734185233510100262094457809962388102516950675386705301024133895969182966250231031713433958398202277498908064742856022567149839922874850214040849167368296202028009924697050068019188751966756182770181235576641149006301778503000368730544017483682835554459160162887291120222380501516682068057274503014931937619027123180145028306291639431401326172451484540015012131253712073377800116333500565483933201129364458916676407010130612214484488420095564413087064426700922665581829442586008881063941588533480083261817034396657500711475548403703663006382757934630200350061207273210835836500535910627272057511005100435496065192790042632744471046790500464460512098628124004146873677965776390033102137134193169200360486636510059489003108415689711102280021778658281264104000226597400202780435002361115632673126020024436883881858388900249212598351540120002,
  227361530063300820442679354445847262104331051793207952152042353805826315512600413962227641158093504043599358251934809039471251318050292020385001700737935440903752111229438327716036532775214223457030355343192511303534703452546153642841937033506520862457780120324784058634811880803144254549676371733030400768721422405550293551473449046489802830782105011200632027260825704122798150262159448126859011502517459970077336165024137787534273324790231060689088960916402279599784558140008022581972109448530430214142531915418084302028687645871872101019193136855751743590181263092328650960801780176026084568107017493529408159534120162943325984925522001516990046727801102014948265678756886840145111698006522356701326582149487276067012133186951190055090116420970664914638901129743244135416636010132179033381032170095626184032919869500922897127333208051008889294004860858410083289471781702784800711563096246374311006385358811855969580061214490897942909400536096709302884719005100878216017002180042642382007867636500464650281941149924004147206057726842390033107174384166977600360549136512610168003108469853444809630021778714952041446700226587825628033596002360875211424631500024432996974920525000249164208384116614002,
  238736825073243830442810682477238744404332542258420056850042370429515316780650414144382654372536704045559670638632253039491964038804756890385216497995993153803754296707612408013036554583971873991340355556554188876960503454591800543467228033525733828522503740324960752282826166003145844983563574907030414773473725391460293672057081948629502831796793722205812027269165914290936360262226371536958720202517983909970642243024141787166004614670231090440863050733402281754870411328065022597162320224510630214246639422075397202029380867636845572019197617772198956880181291183931775568101781882452478237917017503563077153955400163000371799441243101517303287297993912014964857157473454110145196355991456671001326997681869093309012135145905263123900116509522543019832501130126362238868223010133762329642364970095688548018593954300923130685450172587008897588193011465590083317317341279850500711651170929969722006387973074030737010061221739523336178200536283431261011499005101322088899892980042652036714081174600464840235408363228004147538488236971020033112208149789435600360611532759690754003108523842389444440021778769813141002600226578247027027956002360635064997003730024429116770468040400249115913485362574002,
  250667177534294360442948284940176479404334102417717342740042387813646814015050414334685547254508904047605683690508854039513561331500685530385440251657250212403756571110302184934036577258147744104700355778168060464556003456714514083562646033545651363949137670325143748819791913303147490562084326740030429249847904554880293796581480975924502832843635406776538027277762136885883180262295283023191693802518522897061177060024145897723438597860231120988520689443202283965492496121199022612729115061345580214353226254945143302030089923579361129019202196688454866120181319862715489694701783622900226894835017513787136854660640163058445380543378301517621872189943237014981715926275382860145282297631869528301327419123112275980012137130877857730440116599167933098550701130513856078816244010135362250503176890095751509778285958900923366270331641426008905946895889564960083345354691160848100711739774649403598006390600763919961250061229019155098440000536470793888127853005101767114730885910042661708565780568400465030371808115028004147870968322593320033117238420224512800360673825294838019003108577656904197440021778822871148745500226568664454245761002360395193081234080024425243251515027100249067713375390419002,
  263178982074817320443092453804077818204335735443205320347042405992058569944610414533490601872354204049741036843651421039536079864715401920385673323931407184503758937943864495249036600830992366996030356008342868282790103458917100008052882033566298411572315390325333265050926674603149193126817080231030444213121948406860293925170367347298502833923607431675358027286621898964641940262366239059791015102519077343844363872024150122137462217190231152352303117964002286233008368590103022628681328022070240214462348134796721102030815154004588113019206875614635522440181349140149230956501785398000657679014017524204934837253080163117563800206494801517945884994814721014998845907330309660145369540525291910201327846548533789870012139142175638596180116689918676528116701130905768858715873010136978944257389100095815074075403779400923603896201470692008914370504925033730083373584812247664900711828909603373357006393241924303431610061236329861210156800536658797922126694005102213293519274850042671397538969621700465220690448360846004148203496813113490033122265184702166700360736014162225552003108631297347897370021778874132628991900226559077963869075002360155595367883110024421376401131432000249019607775410159002,
  276299855528259200443243494259734247904337444647396067618042425000051610152950414741167059927636104051969519508218113039559557780810737730385916091218504197603761400848470618862036625336991558733160356247398512273957803461202462624773370033587700765270649820325529524960245901503150954578463886598030459679048977256570294057951185611373202835037715596302370027295752939009872240262439297650740218102519647673576615899024154463412494291320231184552939204473602288558806936241128022645027988387696950214574061958310036802031556906061197926019211656599284486560181379027910320905801787208395914702902017534819872717007160163177744389088396901518275410487608148014101625107446722840135458102483599206801328280034293229190012141180108396256390116781786723563094801131302144135905694010138612560263616370095879245702679596000923843577356260488008922859413130261420083402008688308847000711918577994343967006395896597974824860061243671709548721400536847444097099347005102660625266641330042681103609563305300465411190637172862004148536072540910630033127288432518135200360798099406659152003108684764079007850021778923604124462600226549487609781458002359916271547088900024417516202442831700248971596407724069002,
  290058691994271670443401725301405266004339233489246242418042444874451653447980414958099735512353704054295077058490146039584034753294751080386168944646778488803763963603042114896036650811910726800820356495666438991907703463573608139709095033609885097901984030325732759938931147703152776878671345885030475663871396120410294195055210790205202836186994922154204027305163212586828080262514518369159602502520234320541542582024158924628230398800231217611656523999002290944309138761739022661778324699253340214688425821237290002032315533869256284019216541730052173940181409537887430048701789054739128401462017545635406940101990163239004740054625801518610534642078425014103393545377463050135548001535271603401328719657400824715012143244989073472260116874784134138575801131703025823830212010140263248950645350095944029482285715900924085328165547834008931414015101986210083430627305977349600712008782028531781006398564827741265930061251044767887735800537036733143331298005103109109966869800042690826753388308300465601871682748102004148868694341340350033132308153033731000360860081073572355003108738057455625010021778971292156344600226539893445569451002359677221308575890024413662638630212000248923678995721226002,
  304485720310881800443567480333803695504341105580447098002042465653673043116300415184689652184358904056721817054515585039609552046342526200386432290630216816403766630130362350924036677292840710582670356753490043536237003466033648100738701033632878990118966750325943209020662011803154662051905228160030492184335450355230294336617658462571302837372510463137911027314860898143968230262591962397652712702520837730322373663024163508941426735780231251550192674148302293390968642577300022678941768877684550214805499041987209102033091398650316327019221533134386189940181440682184095316301790937694587268493017556655049585173810163301362711745162601518951344645819214014105190312420450540135639255927674103901329165495725512363012145337133791809560116968923078677459901132108458194270545010141931161822923120096009430265950379900924329163071999010008940034707023103890083459441654748205300712099523915888283006401246656422884580061258449103896287900537226665787298020005103558747606162330042700566946183570500465792732893416787004149201361052736840033137324335675640900360921959209022086003108791177835474580021779017203224356200226530295524524197002359438444341662820024409815692929755500248875855263872302002,
  319612564040248470443741107805005451404343064691976700166042487377785277712170415421354705295207204059254015704005030039636152576554567260386706551446498802203769404502369755196036704818245204778330357021225084955948203468585802953274980033656710960091564470326161119124115251703156612187380278907030509257706194953250294482777797863757902838595358137263987027324854402960699760262671692569635121302521458360080738516024168219587723770270231286390806831744502295900272549484619022696527960423042360214925342185638937802033884868859747909019226632980232817660181472473122290719201792857937912011089017567882369175317250163364836432183856401519297928915511228014107015821818230470135731884129356495301329617628003063283012147456861878389770117064215838902039901132518485879583875010143616451466060910096075452935073669200924575096591601338008948721886664456660083488452726976168200712190805870083751006403942126852375210061265884785138227900537417242751660629005104009538163053750042710324163600821400465983773577650345004149534071516414120033142336969935722800360983733859684220003108844125575909430021779061343806807200226520693899642955002359199940335271220024405975348632613200248828124937724232002,
  335472304074748720443922971866358006704345114760924941732042510088582243753310415668530350539002404061896124573446599039663880977034019520386992165836050533003772290945639015059036733428009818348390357299240115556396503471233405711289900033681410494163860590326386745302839758603158629441046758706030526901782888697700294633679068080329502839856665580253438027335152369245791920262753773411668128402522096678841940262024173059883510524890231322156291555151002298473742119628429022714546750694369560215048017088392818002034696320321338703019231843476749826450181504923246051943901794816156232154383017579320991500658020163429444302431066601519650377112336837014108870492222287250135825904832373342601330076133844275611012149604495892812780117160674808649783301132933153874951563010145319271552349060096142102400843477000924823143313854777008957475953386606910083517661517873303500712282630108490902006406651281874555470061273351879071455900537608464755261961005104461481608426630042720098381205120400466174993044069519004149866824576667860033147346045370796200361045405072849184003108896901033906920021779103720360663400226511088623630670002358961708977934280024402141589084697400248780487743894985002,
  352099543974526630444113453060504895104347259897602363659042533829654256588740415926670319726590204064652777557731385039692783663866774960387289589622951976503775293847056650162036763163492823240890357587916924556393703473979905747314762033707008078473243560326620351002721794203160716037635308198030545134914824656220294789469197420338002841157593021605302027345763680390056900262838271186820310602522753167786866188024178033227830331890231358869984837115602210111293350908657021733008207271697600215173586882465272102035526136364201880019237166875030762200181538045325155581001796813048365124016017590974600451611010163495205000279846001520008780157561871014110754747755241110135921336954624138501330541093743227946012151780361654250780117258312494693280701133352507540635834010147039776846286060096209383604351507900925073317901962753008966297308141587110083547069025506523200712374998852168416006409374164345923740061280850453047200000537800332513122394005104914577905526550042729889574475386700466366390601452381004150199619080776780033152351551602443300361106972896417516003108949504566066120021779144339321608900226501479748901432002358723749957804220024398314397686460500248732943410068313002,
  369530478152218790444312949038688409204349504392944222671042558646463019760260416196247364826690404067528798117913874039722908905091468020387599296358467194703778417759697599332036794067577648898190357887650996556289403476828872705114611033733535231560929690326862208327260942803162874272761772002030563976017608784810294950300326041406802842499334183684969027356697467376988210262925253939080471902523428320550679644024183143104328923940231396555782413109202210381943852233804021751922618401607620215302116021435105702036374707962025965019242605468840884080181571852358853697001798849324997837170017602846938862935180163562137483996199301520373230248286824014112669018073653000136018199642213747001331012589085595436012153984788268715830117357141517564471401133776592604245220010148778123210119830096277301516709360900925325635093022830008975186353474634240083576676250795098800712467914325844476006412110817134220500061288380574309310100537992846736436071005105368827009977370042739697718804944600466557965558742464004150532453879004330033157353478316805300361168437378895657003109001936528605560021779183207104109000226491867327580111002358486062962661000024394493757892679200248685491664988624002,
  387802963025331820444521875308539437404351852726221694004042584586419617373230416477754031354303304070529206797081149039754306892249431840387921777987992534903781667408909682912036826184727180340820358198851985292410903479784000538848511033761024538003609860327112598310883494503165106515093661691030583444589898744620295116329131921316002843883117204407933027367963115355138790263014791538846092902524122643528442045024188393083245745130231435238150330229902210659488537989636021771300497527858490215433670306048957002037242433874704693019248161595364922130181606357579664581601710092570887083661016614941809368731180163630260996103827601520743820873368556014114613738431441380136116512271833293201331490702157028229012156218108156500880117457174612383063801134205455163008402010150534467609402610096345861139164627800925580109698216633008984143493525902280083606484197508099800712561378757900153006414861283117984550061295942309993549300538186008132566835005105824228869796500042749522789502048600466749717225056523004150865327824599650033162351815264373700361229798569391496003109054197277360640021779220330101470200226482251411503798002358248647679920010024390679653212248300248638132238455756002,
  406956591261672790444740666013611406104354309573072557527042611698965658326010416771703462226186104073659229024658000039787029814607776990388257545542244499103785047698613021053036859561039919422250358521944203167121603482849111682635158033789509683096812170327371811200525895303167415208579978105030603560730615298150295287716960257481802845310205584104209027379570270376084400263106955729511702802524836656187815145024193786823449375250231474942137781780202210944093950138723021791152587908554380215568316910493351802038129720792382894019253837635966825190181641574457220335601710304293496499498016627263075268480820163699595067213815601521120646829514110014116589349743917030136216294453161612001331975516151592927012158480657079794630117558424629689247401134639141686057040010152308968118557380096415067503217083100925836756602999579008993169134032156120083636493872261819900712655394380352856006417625605186115390061303535727126885700538379817405044733005106280783425410540042759364761790430900466941644909692701004151198239773799470033167346552259794500361291056517610186003109106287167780870021779255714685906700226472632052223336002358011503796640540024386872067207953800248590864861319895002,
  427032769248372160444969774745965561204356879813864196941042640035657695737040417078630233244617904076924303219846462039821131936152007310388607129853536818503788563717821721505036894244308070751550358857367127059192203486028161354562020033819025488621477720327640146745727417803169802874746160270030624345156638987940295464629956384018102846781899157164183027391528846301913850263201820175182294002525570891388997616024199328074517979600231515693390212728102211235930430435905021811489867321371550215706124409140993702039036983481955197019259636016961665080181677516702172074801710520175069082119016639814661404254340163770159519899656701521503804237547993014118596298652437390136317566031287306801332467115180277056012160772774170469420117660904536280500201135077699016716590010154101783926456570096484925670734851300926095590767289741008100226368232843600073666706284517097400712749963428839525006420403826237428350061311160892626786000538574275253561880005106738490609670460042769223610809813300467133747922137996004151531188585828440033172337679181654000361352211273849643003109158206554927730021779289367208599200226463009301004800002357774630999533190024383070983496272600248543689265476447002,
  448074797920442750445209675393167697104359568542402248319042669650255049671790417399091221414170904080330089205289505039856669675448043600388971082298025923303792220747395401656036930284077615811220359205575920935357803489325241999303526033849607949726215360327917914497478500803172272115055982298030645819221005178530295647239202297583402848299535089083698027403849031886304970263299460509537510802526325895712054919024205020678865729440231557518162701498402211535172201912511021832323552858454380215847162803779574902039964644936058306019265559210399890890181714198270153604301710740291608040730016652600555049242370163841974472618263601521893390558855332014120635037589693330136420347089151835401332965584279557814012163094801958049250117764627416052913801135521174374806610010155913075342016480096555440734070738600926356627225656697008101142754734972580073697122446576683900712845088142600022006423195989180219590061318817873300526400538769382373969220005107197350347867560042779099311616466600467326025572076592004151864173122901310033177325185972290000361413262888996584003109209955793472220021779321293999756900226453383208831040002357538028974968140024379276385747158500248496605183861001002,
  470127957090253560445460863021109210904362381074998735358042700598811165931530417733666507338879004083882476942427094039893701688476771880389349975564831444803796024267028331597036967731710440620990359567041975797978803492744587873618923033881294272958455940328205434116076463603174825613342252158030668004931610741910295835720856884503302849864488899532421027416541298033265890263399954385872502602527102229791800004024210868573916124470231600443333623349102211841997451992779021853665105812467720215991503551330507302040913136524592013019271609734864088660181751633365804221001710964720398203808016665624806807686180163915060343677141901522289504612001193014122706024845621500136524657950013364001333471009420033888012165447086397848730117869606470846547301135969615358948898010157743003799800220096626617816178455200926619881087509602008102066113963257470073727743373582470600712940770764460241006426002136931820380061326506735844485200538965139458272760005107657362557749020042788991839183722700467518477169397143004152197192250223500033182309062637575600361474211414521990003109261535237692220021779351501368683600226443753826403092002357301697408982380024375488257683828000248449612350444246002,
  493239593425204280445723854794123183904365322959914084704042732939768648889610418082960312994876504087587595600442789039932288954548063390389744404452971482703799979962484267874036100664044858458700349942253467522338703496290579779147197033914122915478875120328503035688248964003177466138308233337030690924970446161220296030256299945052002851478175512093723027429616405237792840263503381528342374202527900468660390964024216875794323200690231644496418600996502212156588417273320021875526236655470650216139219592066092402041882898148810383019277790156278445270181789836446851515001711193540025750416016678891531526380960163989437855248450201522692246589528495014124809724633957800136630519179931839501333983477515122112012167829976899291380117975855021295171101136423069948884757010159591731865636340096698462070729007900926885367537284771008102996487131671520073758570083512734400713037013540815288006428822312418161100061334227546843455000539161547194630095005108118527149533560042798901168402517500467711102024201064004152530244835992310033187289299246724000361535056902477106003109312945241470380021779379995603835900226434121204141733002357065635987287920024371706583082556100248402710500227014002,
  517459212226800930445999190933923542404368399987187957393042766734058111399290418447601976219699504091451822971108109039972494865404728820381015498669708193903610409373308528903035104706548068013500341033171593315237103399967749947032676033948133625494290310328811060053811404303180196546101747738030714602713367064780296231032280112267902853142050331332939027443085411212733290263609823784437411302528721202097811411024223046474241603990231689705584748053902212479131469996341021897918910112213360216290385378333149402042874378398022004019284103088731086840181828822228254950501711426830398214830016692404909217853850164065128037430251101523101718074935873014126946607159429560136737951590275244201334503076429818434012170243826354405110118083386507680233201136881586507800387010161459423242246660096770978682227049800927153101834632816008103933915614665530073789603597179300700713133818721612508006431656558573328690061341980372769948100539358606267347013005108580844025927290042808827274081911200467903899446809476004152863329751397460033192265885932075700361595799405489001003109364186158291480021779406782972884100226424485392188883002356829844395278940024367931345772461300248355899369235227002,
  542838573170614270446287435718956577404371618198874418858042802045200990277250418828246963309336504095481795242278785039101438531763078610371058236382292287403610837169946322519035108906401065501850341073595286624166903310378078707905361032983367483945294900329129859142132487803183019782963976335030739062250419605640296438241066765419202854857610347868028027456959678706261550263719365178716919902529565034990403902024229384849646534110231736099665210996502212809817206247950021920855350329502820216445076903791433002043888034708939020019290551195309483860181868605686411011101711664672764767822016706169185995353570164142152232355489801523518022059837207014129117148685596810136846976240247287601335029894989523757012172688991166495070118192214490789213701137345213784661535010163346242774890320096844172866127293500927423099314605376008104878440947325250073820844938224685500713231188560334568006434504918339127600061349765279983510100539556317356874143005109044313082139810042818770130949626000468096868747771625004153196445870622910033197238812888914400361656438976756692003109415258341240550021779431869722780300226414846440409100002356594322318040110024364162529635307000248309178694515044002,
  569431790173091990446589178525817089804374983899697566863042838939416481433620419225577921164946704099684417143248700039105802880848237170371102720203370829103611282021158255290035113269532877144470341115550633184471103310773454155006744032101986694748595040319459796318689580903185938887955027538030764328406734471770296652080606040744002856626395272134540027471250883514480480263832091967830230602530432587697631133024235895260704592850231783708174015550502213148840535913689021944348046143341140216603371733175471602044924333527717412019297137188949108510181909202063420772801711907149736778137016720188675019793030164220532098349230801523941262961304173014131321831603342420136957614439436543501335564022988935334012175165831278995480118302352652778146001137814000916556035010165252356457016410096918049868950967200927695375387841164008105830104825526580073852295133119174400713329125313982370006437367434664640990061357582334730034800539754681139803685005109508934205899980042828729713652574200468290009237871900004153529592070846790033202208070375240600361716975670046649003109466162143000130021779455262079811600226405204398391044002356359069440353100024360400118605287800248262548214127843002,
  597295435557903490446905034914446496704378503668144356341042877485732754463500419640305770483261304010406687247563215038110349653526362640371149019312832983403611744585704390705035117802088507841900341159093760178067803311183403077671655032105767589279382450319801246742002691203188956995758391747030790426764004649600296872754681044196102858449988697548052027485971022693733150263948092696853752102531324496427240874024242582154196567340231832561321223352602213496400774423314021968409756445505210216765349032588093602045983750474726915019303863833295529700181950626871420668601712154345308657359016734467757458757260164300289614134471701524371546639393647014133561144500021700137069887750387327901336105551201003462012177674710204502030118413814798038576101138287997431045569010167177931435932500096992614968402288600927969945540751720008106788949106089270073883955211157876700713427631243057996006440244150505790790061365431603141084400539953698288866273005109974707277472250042838705996757381300468483320228137788004153862767232242850033207173648711587700361777409539688910003109516897915848360021779476966249667800226395559315448878002356124085446704670024356644096668825500248216007667145365002,
  626488648701545640447235647758898600104382184368012009467042917756102612567840411007317084153996703910863663504393587038115086249837419960371197205545258144803612225546967766633035122510436535620650341204282781081223703311608444475749605032109683966224984020311015459773124447503092077339566463361030817383682562473950297100473076373804402860330019293787970027501132422977335230264067458256973827402532241413619015868024249450085993221850231882690028404958502213852701736318053021993053515651312570216931089600334584102047066770512095071019310733943580138980181992895896977319401712406344878991617016749010883457720090164381447083087169301524808980414861260014135835582229269210137183817991192224301336654571385953895012180215995053980370118526614854068674201138767253248525372010169123136018480060097067873473484949000928246825335706284008107755015806927400073915826204457696600713526708611547500006443135108824897270061373313151233203100540153369472927649005110441632169672240042848698954750915200468676801029847023004154195970237980570033212135538280810200361837740640572755003109567466011656470021779496988417501500226385911240623755002355889370021293670024352894447864367300248169556793644874002,
  657073249345245380447581688425529655204386033160428071844042959825523769924370411052494405417219703911340148000048926038120020360815940080371247353488452944603612725613843737908035127401176963429240341251177863440115203312049115178943349032113740511102853460311052024914483185703095303254049369551030845226324071937220297335451747062114502862268162030944302027516747749401563330264190281944545837802533184008337295005024256503723585191200231934125944435439802214217951830674493021101829263927037840207100675898306438802048173888114067692019317750387509715010182036025205547318201712663235271964098016763822573123625790164464027137540999701525253673087063651014138145645981477530137299427238106737901337211176300377190012182790056566160850118640766872348876601139251818684593216010171088139676728840097143830724618678400928526030411216605008108728347107199480073947909147954301500713626359686903756006446040352590242350061381227044907249000540353695356985911005110909708747883600042858708562040815100468870450954535323004154529199974226410033217093729527883700361897969028142782003109617866781886750021779515334747986200226376260222685188002355654922848038440024349151156282178600248123195334704272002,
  689113855767633750447943858000540965104390057516361853506042100377216392488220401099642814362260103911836949561989682038125159979569830990371299540585520828303613245521660308968035132481149336657680341299841298872081103312505970436676653032117942065564029310311089861377031175503098638178409389618030873982674852470960297577912992050725302864266139435276808027532830014145755500264316659521560057602534152966672450026024263747848668055490231986901461618630502214592364158417779021104414072958205120207274192083923173702049305607440226186019324916086169995770182080031146002698701712925104759070960016778907417520920240164548052743142082401525705734952049635014140491843354943100137416737828185866501337775459706383953012185397269137110340118756285029221709601139741744452426563010173073113053677750097220492093755788100928807576482120995008109708985347455510073980205079399038600713726586740029193006448959924775629930061389173349947720700540554676602168293005111378936870074040042868734792956012400469064269314003820004154862455330144040033222048212959700100361958094758394703003109668100577590360021779532011385383600226366606310132552002355420743610584330024345414206064141000248076923032397301002,
  722678008020734760448322888568880730304394265229646737865042104967749081430340401148845893397106803912354909551874795038130513412767014030371353847240586505403613786033130498341035137757441135046500341350337575362938403312979584526719187032122293632396857690311129011772586419803010208565952333175029903681569851050480297828085632313292702866325722877368466027549392585591614080264446689277546335802535148992151514108024271187359783753270232041049732146615702214976156611560511021107061168141744960207451724042641912802050462442511608789019332234014943486280182124930355223098001713192043081135146016794270079680227710164633547203254522401526165277820843307014142874688427690840137535772361942932101338347516380827291012188038010849986940118873183626775979901140237081665168373010175078227968970020097297862984497765500929091479339767784008110696973029781900074012715039355764200713827392045258455006451893868359947560061397152132022083700540756313865728439005111849316386811690042878777621747264600469258255420326289004155195735197895210033226998979144875400362018117887871300003109718167749405220021779547024453600000226356949551196430002355186831992310020024341683581403552700248030739629788793002,
  757836296439799420448719544546588561804398664430533566651042109762640744103790401200190666094021903912894903133684257038136089292544365010371410356928301348303614347939337807476035143237396447895330341402733451932570703313470551383139301032126800380684611320311169520087375277003010564935517527294029934352717279687310298086205193744580502868448733893458019027566449197606790090264580472092949462102536172806158154413024278827275019456160232096604684900777302215369551974401244021109771968804986360207633359421043459902051644917389777172019339707204441683950182170739762755366501713464141470620966016809915295619760200164720534163416943401526632415037919752014145294701829979910137656553706030764701338927442124592422012190712663504977920118991477093735326701140737881838321367010177103657424620010097375948832211833700929377754852198354008111692352817944990074045440071197679400713928777880341004006454842226326728240061405163456680101000540958607801043419005112320847141281380042888837022587662000469452408585856458004155529038472639850033231946018713533200362078038473658420003109768068647553700021779560380056248400226347289993840055002354953187676335310024337959266544923900247984644870929863002,
  794662495646145510449134624068749681704310326359979609798041114770739267385640401253767734592705103913457840589678726038141896588853958050371469156307260197503614932060755902928035148928624941776120341457098035743380603313979485244174250032131467651121544160311211431724606273403010933303738214878029966026723935951020298352514094937246802870637045540766283027584013959058037450264718111504008367802537225148362191105024286672734765091570232153601042601120902215772778026719456021112547924719544690207819187660504653402052853566358875316019347338741451937690182217476595541612501713741492674253625016825847875379645810164809037615850786701527107261499875822014147752410817496940137779104995945394801339515333771953969012193421612649420520119111179986351143901141244196892151123010179149575610751650097454755104147608600929666418964329640008112695167537531730074078381221104093100714030746526423745006457805041663712290061413207389353178400541161559057611058005112793528969301330042898912969573166700469646728123235531004155862364052536590033236889322357113000362137856573380871003109817803621840660021779572084276711100226337627685760673002354719810345527980024334241245783776500247938638500853212002,
  833233704270899500449568960435309778704310807158341032875041120001264742647900401309671422317969603914044668685939451038147944622262107130371530335337464241703615539248303655345035154839011130232410341513502861728317903314507021320622907032136300961492036890311254793548307549003011314059581473078029998735121224502660298627261839969976402872892583787640938027602101363559268880264859713769172633002538306777158864178024294729004530692730232212074339310524702216186067649002849021115390516712606410208009300031466134502054088934110724037019355131769899139710182265158382716478401714024190975946863016842072704069271140164899081904020668201527589933674297067014150248349345240830137903449638752320801340111289200001139012196165247608106150119232306989299811201141756079154097504010181216157911348950097534287299553723300929957487698136018008113705460176089370074111539538057154400714133300268033508006460782357362409390061421283995353694600541365168281047234005113267361699339750042909005436723129200469841213345399236004156195710838743300033241828880828164700362197572245198535003109867373021651470021779582143178198200226327962674390991002354486699682510440024330529503466449400247892720265568421002,
  873630490636783630441002342361709067404211309760783031224041125463824663009620401367999922210791003914656372089294372038154243077217242910371593987401969198003616170384436716362035160976723955250040341572021974817602203315053816485385167032141306012317627180311299653928463814803011707604131660667029103251039189815000288910705216334344902875217328939370656027620726299460019220265005387937090718502539418470118057924024303001477824801310232272060938300805002216609658929744442021118301257289625690208203789668305502802055351575932999543019363089491822465460182313802960474649601714312332220042846016858594742927822000164990691727247457901528080549618823052014152783058142105600138029611315835688501340715407338131121012198943961513771090119354872916584406401142273581361194983010183303580910018220097614550949794482700930250977152830790008114723273883262290074144916073838528900714236441393059559006463774216417663830061429393339874351900541569436113083331005113742345152531390042919114397980805500470035863565585141004156529077735417360033246764684940152400362257185547802294003109916777195949840021779590562803810500226318295006900524002354253855369666830024326824023989893400247846889912057287002,
  915937044644521520441049892182443758004211835129588395582041131168429722165760401428855450678714403915293974837498193038160802015803193310371660209432862516003616826384276851394035167350226690576960341632732014845520603315620549984788711032146488692676844040311346062787489586603012114350952383493029106738599753732160289203108498130110702877613317100531547027639904060079887410265155245916204798802540561024443692566024311495679095144910232333598050287494102217043795274846761021121281691268625510208402751604825335102056642057900539768019371215168367365000182363428477009403001714606013834867589016875419030398128350165083892145374444901528579229000411826014155357084786163230138157613985670128301341327788177610842012201758151337766790119478892712440581601142796756662500637010185412022395760570097695551618466478800930546903505046784008115748651970926420074178511883026016400714340172192735891006466780661827212850061437535487987509300541774363191563477005114218479142694120042929239827213879900470230678097339650004156862463649715600033251696725567244400362316696540410032003109966016493275730021779597349176598900226308624730196965002354021277089150090024323124791801484500247801147188269166002,
  960241336120513650441099640314102569704212384268331319840041137125510237863880401492344407479231003915958541864602195038167631891995028320371729102041718282503617508196780287265035173968287177304480341695712304221333103316207924172364694032151855086202920030311394071648076605803012534726458803141029110339640678743800289504743654662720902880082641674758452027659650354194726760265309402545988254302541735257443502130024320217266732871670232396723752040552202217488725519172342021124333396426308270208606282810366398302057960957069829554019379512120793038840182414053397523269901714905334856606408016892550683214001710165178708583487371401529086093114807120014157970983780659540138287481886616028501341948532781208457012204608217920924850119604381452247113701143325658621532053010187541661368758910097777294901515335800930845283009016907008116781637913322920074212328022990172600714444494961623742006469801736591254160061445710504644544700541979950150442326005114695763476345930042939381698214983800470425656254525376004157195867491794750033256624993644117600362376105282762797003110015091261743600021779602508299624200226298951890927576002353788964522887900024319431791398812400247755491843116331002,
  100663527989244500431151685722544982704212958223598386475041143345933223923330401558577541757101303916651180583513831038174743566435173750371800769654683094603618216805946370758035180839988402410840341761044938450521603316816665265749887032157411477264570700311443733682454129303012969170300569344029114057712437397820289815890564578600802882627454902841370027679981316780372260265467975669861895202542942007009415238024329172036141598920232461477005378033502217944704040278265021127457984156171510208814482226555622502059308861676708447019387983731495588690182465696509311560101715210395953502112016909994897501158570165275166836688488001529601264906207632014160625316630717140138419239539737657401342577743292893091012207494566004600310119731354343440592601143860341218712655010189692678046173770097859786427352325400931146131996753781008117822275347189130074246365553890837600714549411997593806006472837483712007840061453918454675196200542186197619782557005115174197952721850042949539984702216300470620797351328033004157529288174811550033261549480165757300362435411835120797003110064001849040260021779606046156020200226289276535480532002353556917352590290024315745007329495300247709923626469412002,
  105521490787047260431206131708332629404213558086779149072041149841020135610320401627670124464942403917373042527819935038182148321748141970371875320652351575603618953232067879257035187974739431337520341828814879595533303317447524127415879032163164357335204690311495103763102100903013418135755666513029117896472091572250281013683723567862302785249969440080667027700913520019935940265631086209826606702544182132108766849024338365922872608530232527897676550219902218411990874375597021130657100138840150209027450804699564402060686371337353079019396633445047088230182518376926919882501715521299450380988016927756949891926120165373293074925507501530124868987142062014163320651920760920138552911751644855101343215522947604898012210417604261906040119859826726434660801144400858853825897010191865253867951690097943031856971066100931449466878228776008118870608071886680074280625538673644700714654925601808499006475887946193279440061462159402786922100542393106225752524005115653782363790380042959714660319659600470816100702263531004157862724614922710033266470176187255400362494616258259514003110112748602422940021779607968709051200226279598709986297002353325135259755510024312064424190982500247664442289152814002,
  110608054842250000431263086091274018504214184995929038452041156622565314076040401699742127404334403918125325055017034038189857878412819130371952867514595175003619718533024364557035195382286705980860341899110052767609303318101277069943444032169120431556054610311548238514958056703013882090135470272029121859686355700410281046788003055216702787952459973846317027722463984580737260265798858242850148802545456513286567584024347805005827501600232596026556021579102218890851834553060021133932425024819170209245291543833298802062094097252581289019405464769250780580182572114097376461401715838149353509550016945842198653843580165473113847875739201530657031658550705014166057565392665150138688523617358126701343861976081094690012213377745329133380119989814075543587501144947266348478139010194059571502644510098027036884064233000931755304141550733008119926680049528730074315109043066463900714761038078704179006478953167040026240061470433413564256900542600676590624014005116134516494271160042969905698637893600471011565622184996004158196175731285110033271387072823608400362553718613465783003110161331868717530021779608281902175100226269918460318970002353093617925677310024308390026630360600247619047582940187002,
  115933701334372600431322661402598307304214840137707423988041163702855156523930401774918409133420003918909273113368669038197884411211910240372033526970513405603620513805619956686035203072725719851060341972021445744120903318778726686582633032175286625498885450311603196369159858303014361515201318751029125951234744041510281080932389817845602790737264882314388027744650191167134400265971419079047124102546766053179065971024357495510529685730232665905378658210702219381558631306623021137285675129884260209468109529435590402063532662415528665019414481276212634980182626927805500330001716161051375786443016964256084832333660165574656089886090501531197880930075639014168836640024630200138826100523197427501344517208139834216012216375405837362600111012133199991027201045499618948569882010196275814853240810098111807235140189000932063660353143957008120990535405104660074349817135575838600714867751735973286006482033189257919890061478740551468170200542808909332770060005116616400121651410042980113073154516100471207191426289607004158529640446055420033276300161249520500362612718962533993003110209751994316490021779606991659099500226260235832097578002352862365031450520024304721799344156400247573739260549877002,
  121509379273254150431384975085063993404215524749393768229041171094688039754780401853328907995697103919726181074686369038206240566278795490372117420153682207303621340186967099311035211056513082506150342047643211808651503319480702707859740032181670092134089510311660037618367413703014856907592910649029130175112804191510281116148261164493002793606787935371643027767490092355617610266148899341691669202548111677038840887024367443812466067140232737576844328496402219884388995416360021140718603143320510209696011972820849802065002701822748644019423686603429489950182682838179286327401716490112962273469016983004133407580180165677947124969429701531747546540561322014171658466110793920138965668149694659901345181325690996509012219411006444260150111025439624443869401046057972326775423010198514169063007500098197348669639719500932374552157925620008122062218426602450074384750887483330300714975068884546433006485128055852912500061487080880835432500543017805066662862005117099433016203310042990336757294647700471402977430125671004158863117684390160033281209432699197000362671617367762184003110258009325177160021779604103883846900226250550870687499002352631376257978370024301059727078153400247528517075640479002,
  127346525809732820431450149701320302904216240120984924207041178811395025753640401935108842533848903920577394635411044038214939478762743130372204672762879810103622198855917735215035219344478985740840342126072775913920703320208062885014056032188278219010136440311718824473707708303015368779268850292029134535435439080560281152467901213596502796563500038704996027791002124718682050266331433049103338502549494333271667433024377656440500359630232811084638924818202220399626803212743021144232998849231690209929108251218688302066504862688785679019433084454894014630182739865695367887901716825443316069429016100209195446577290155783014671857810801532306159978767292014174523641341582570139107252474530198001345854436432507963012222484971866067620111038902269073076201046622382585031453010200774820521343530098283666980052671500932687996279482604008123141773565129270074419911372841858500715082991838574493006488237809830801510061495454465877981300543227364402871632005117583614941001160043000576724411457900471598922949599273004159196606374445680033286114878466150700362730413891948127003110306104206819720021779599624460807800226240863621201708002352400651285978210024297403794627188700247483380782806332002,
  133457087403163350431518313150851412704216987597376740469041186866861379044330402020398919561941803921464312788454509038223994791134129310372295415228476485603623091034543508975035227947840084399110342207410944270672903320961693901070795032195118635650519900311779621123388679003015897657959668275029139036440319765610281189924525934918802799609941022114051027815205221244140270266519157698447507102550914993985404282024388140080359447280232886473455814384102220927562204275832021147830689861140450201016750994855221401968039804664275810019442678602216719110182798031184558652601717167153424531251016102152524438487140155889886849113187501532873854504294912014177432770884807600139250879775493430701346536649203171098012225597730909780240111052522735802761301047192906257033481010203057956869644420098370767992034677300933004009520247889008124229245435030170074455299668471980900715191522915410584006491362494196795830061503861370682291700543437587948060813005118068945651938670043010832947786670300471795027300981416004159530105447377810033291016489903004400362789108598385835003110354036984325660021779593559254809600226231174128502097002352170189795988140024293753986834973600247438330137573120002,
  139853541880851470431589598895846322104217768580633257122041195275548926611080402109345550178950703922388389868344950038233420672152036620372389782884680469803624017989666602217035236878212805062270342291762017468620403321742512310377891032202199221174497500311842493793028601903016444087633654121029143682491391372100281228552308849968802710274872147310544026840118824056648120266712214351492228502552374655551153370024398901578194252050232963789017727210402221468491751610441021151513542370102830201041133089692586701969608200057623749019452472885765247250182857355837473838801717515356085845998016104130978703502860155998592180296059401533450765168729358014180386467467510670139396576633467450901347228073992858986012228749716505513870111066302640415527501047769600310741128010205363767007175930098458657564523730500933322608761676075008125324678814003790074490916853958118000715300664435591964006494502151955080000061512301659208745600543648476304987889005118555424897745910043021105400631070500471991289800914368004159863613837341330033295914258421279600362847701550861317003110401808002335740021779585914111165400226221482437200856002351939991468373510024290110288593894400247393364896393439002,
  146548921425903350431664146196350730804218584532346902750041204052519292356070402202101074017000903923351137672311969038243231836517388440372487916147839032903624981034442871413035246147627096300620342379233907238928403322551465507461268032209528112148123590311907510807749103603017008628975847616029148478082474617740281268386407407758102710598252461686263026865762897448445750266910747722365059302553874339176953145024409947944216616710233043078099089783802222022718534342920021155283461906574140201066068721883467801971210734060315043019462471215821212360182917861210232549001717870165935958588016106145145499387300156109159599192778501534037028837000351014183385351458569560139544369935438359401347928821952782335012231941365739068620111080243612647499401048352522150892084010207692441096963630098547341589856939300933643810964418564008126428118643217370074526764011644761900715410418722822049006497656826108382900061520775395291014600543860030072501804005119043052420007240043031394056085023600472187709766418794004160197130481490120033300808175491207200362906192813649122003110449417605048300021779576694855743900226211788591661733002351710055983332150024286472684844829000247348484816642382002,
  153556836531396270431742100355070642104219436976093226298041213213458039178760402298823992027684403924354127660032833038253443565235507000372589960700999603303625981529999006412035255768540634553020342469938256970609703323389532726073562032217113710672215260311974742656080893803017591859880541955029153427840965382440281309462990052636602710931410824369295026892157941226345130267114906267353116302555415091494263461024421286356413693240233124388548812557002222590552312983404021159142394116247640201091569737010578801972848104975911697019472677573754787530182979569230241869701718231699475858652016108195621077675900156221618455101905601534632784208961129014186430050952061460139694286877528826901348639005405828107012235173119884678990111094347296283776101048941729621524123010210044170571687060098636825993887109400933967633168498069008127539610027418700074562842226632619700715520788103952183006500826559657544300061529282642635433700544072249845541114005119531827953178180043041698887218984500472384286514900304004160530654319976570033305698232641530700362964582451508488003110496866136217610021779565907295022100226202092636001324002351480383020901650024282841160576961200247303689656613239002,
  160891500960314050431823612972212062804220327499983834720041222774699753024160402399679208121051403925398993234860467038264071726712826960372696067684943035003627020887125485867035265753853500164540342563990566096811703324257726069339887032224964692714108990312044262055732889603018194375957662951029158536531634875430281351819264001511302711274630668509308026919325004382256610267324842276791639602556997985157512939024432924164341397120233207769313540080702223172309657300376021163092325550111760201117648218358428201974521024452789877019483096013217320040183042502202063920901718600075099231230016110283010808217580156335998518180241301535238171841189348014189521201851395220139846354968056449201349358737856971334012238445424437961670111108615349254343301049537281008505735010212419148139589530098727116736099392900934294092493482506008128659198235045810074599152586774712000715631774908963461006504011395601081200061537823464820386300544285136215132198005120021751224603220043052019867034000400472581019364155973004160864184295950890033310584421459297200363022870529679618003110544153939152060021779553557216146500226192394614090363002351250972260964900024279215700827584300247258979175513083002,
  168567757752229220431908842210755768704221257759321342861041232753254104469520402504838279982822903926487432109448501038275132798613305360372806393895907718403628100568027160100035276116923338541250342661510318470283403325157091571927591032233090016690233800312116144021276575503018816791053396703029163809060532995140281395493503748068002711628203283959044026947285699094628310267540711969086441902558624119456979563024444868892998490330233293270461372348902223768314086853635021167135284468956600201144316491357477701976230217720672515019493730661352202060183106682813366858601718975413120475158016112407929305244580156452329984849157601535853334169011101014192659447954217580131000060203061695501250088134003759777012241758729149052260111123049443730431501050139235042075450010214817567790396330098818219809727881100934623206138658219008129786928698335360074635696182672456200715743381470948511006507211376934754730061546397925295687500544498689768387752005120512821954533260043062356968462219700472777907632381176004161197719355561050033315466733589665100363081057113879959003110591281356712460021779539650386993700226182694569555045002351021823383255850024275596290681925300247214353133458516002,
  176601106319347890431997953072581616204222229479360286234041243166832924743610402614479679407082403927621208758791350038286643890500940710372921101990230552203629222088133350750035286871581021846240342762621114850943603326088710295195753032241498932306736570312190465933798967703019459737785448623029169250478997556000281440525080312098402711992428024955344026976062215068407860267762675586917274402560294620945285310024457128246782911800233380943206066436702224378896214234107021171273341662584500201171587128105129301977976423831016319019504585720024267770183172134140960959201719357835803094129016114571000554993170156570643483261700001536478415528749611014195845441038094640131015705620719223201250827309746871850012245113488055939490111137651266221320901050747650899389056010217239624801244310098910141241872207200934954991383202660008130922847013428640074672474107671648700715855610126093196006510426546651140240061555006087381975700544712911088505138005121005039856143160043072710164367402300472974950638176076004161531258447951890033320345160735706100363139142270300470003110638248731310480021779524192556226600226172992545778262002350792936067365960024271982915272947600247169811291471346002,
  185007730676199260432091117685872659704223244458178093835041254033878334392180402728789062493486903928802156963798776038298622767295675810373040360696137909203630387017969414494035298032146827117390342867450809631889403327053699456304696032250200989665574820312267307612578795003020123868093325136029174865987772106290281486954491252369502712367612523017740026100567733422120250257990897495669365302562010644077785602024469710113531961890233470839931727274102225004393891057455021175508611283960650201199472951964686401979760395901306455019515665467067953890183238879656920816101719747467388463950016116772858044885120156690970078831121801537113562180201360014199079840946981370131031574596128364801251576382200748447012248510159517991920111152422517671589001051362588207075781010219685515742621400099002887093614094600935289465586356439008132066998940474510074709487457858482800715968463213658267006513656947739194010061563648014270101300544927800754764924005121498404635549520043083079427545424700473172147700552033004161864800525264720033325219694658206700363197126065601969003110685056404906810021779507189453357100226163288585900880002350564309992749610024268375559781178300247125353411474336002,
  193804528849014790432188515604246054704224304569660373336041265373591964220880402847959550070635803930032182448634689038311087873570897180373164345032927543403631596985091781081035309613447147188400342976131651934156403328053213592296114032259206048643715890312346751388842109003020809853804040709029180660941235141980281534823391462009702712754072905189460026103615444572356930258225546284141933002563773371867145083024482622568648027190233563014217996909402225645152356761789021179843251698563010201227987042243575601981582901363319645019526974257554489850183306943234794753301720144434124981009016119014144894290150156813341279821484901537758922329340725014202363315678478710131047670008107058801252335469704298917012251949206249681420111167364913558820801051984107043802785010222155438484318930099096463460133954000935626646187594986008133219430403732240074746737332055450300716081943075961034006516902623183823730061572323769020522700545143359342529499005121992915991828320043093464730724778400473369498138938318004162198344542636490033330090327175465900363255008566911472003110731704719009730021779488646788800900226153582732823019002350335944838730470024264774209434516600247080979256286938002,
  203009143512629760432290334118074613904225411766604917126041277205965309558060402972192018719694303931313265615157719038324058358721653710373293236537789847103632853676088536707035321630831751268540343088800431204071903329088445760180537032268524288553265360312428882181654837503021518387213661441029186640851743573070281584174624765684602713152134017746824026106751756140144800258466794867582937202565584016552390902024495873879311504230233657520865751431502226301524390257614021184279466349176520201257142738952018801983444722215410176019538516525078370800183376349155902531301720548864297595729016121295513986884610156937789043000593001538414646151254928014205696541471883050131063994768259420401253104691831680685012255431095354499480111182480183991744501052612267942847422010224649592201388670099190876470827281700935966550706798843008134380187491669920074784224831817232700716196052058356832006520163615965455560061581033414562703400545359587423241564005122488573617032370043103866046567076800473567001273188294004162531889458199220033334957050163102300363312789841818533003110778194014673450021779468570253940600226143875029205319002350107840284507170024261178849508053700247036688589621137002,
  212639993904667010432396768578481154404226568083949007574041289551811260423840403101695402786217203932647464377921139038337554103033745140373427223500525546103634158838647693748035334100191612598340343205598627451495003330160628774103007032278166218090608540312513787576011679303022250181685109979029192811394093399650281635052256338546902713562129655508212026109979133150906030258714820593101319502567443820282750302024509472508782694580233754415923315409102226973870464483398021188819504636406620201286953647643512001985346655278885039019550296783063399200183447122115722582601720960888257736590016123617628104626050157064345779356439101539080885813312918014209080202897045220131080551821296714701253884169403155067012258956298359076100111197770073808848601053247131894679271010227168177380119270099286132289421314900936309196744424436008135549316457062660074821951061426570200716310792509220702006523439969059605680061589777013694515600545576485564423039005122985377196209830043114283347667563500473764656423586040004162865434233079280033339819855553855100363370469958371678003110824524632496430021779446965521179500226134165517470147002349879996009158510024257589465323887600246992481176077176002,
  222716309068651310432508022734505515504227775642124763040041302432796851665100403236687007780930203934036917103300785038351595744684755830373566501206424322603635514283695347106035347037977321048790343326672566270553103331271036480681128032288142685582802780312601557903181739403023005972262662774029199178410100581870281687501605967056202713984402796873721026113300106088057770258969805347507511202569354055816571501024523427120794375960233853756713203141702227662558903915072021193465662815156410201317433644338290201987289512458519674019562319626088530230183519287230369735501721380638453627815016125981160063355390157193044359877089001539757795498567273014212514992944027500131097344145360863401254674024496016832012262525291247488810111213236342677422001053888760349549089010229711395824014600099382237114091357900936654601981673296008136726863717087750074859917127890040900716426166779928746006526731725436450670061598554629081641000545794054329673724005123483326407421410043124716606555603500473962462910852626004163198977831396400033344678735337388900363428048985074686003110870696912620010021779423838244005200226124454239802884002349652411691649470024254006042250944200246948356781139441002,
  233258162479789940432624309083963929804229036650547449750041315871477278778150403377392835585156203935483845656448789038366204707709216910373711272187578233703636921887605993884035360461218099151210343452173578789323403332420985073647280032298464889539744710312692286323373437203023786516303585686029205747913305202340281741569282172536402714419305844732090026116717272546921890259231935667635418202571316027235644507024537746584036858400233955601859396817802228367966045083878021198220284907344760201348596880531150301989274121007281077019574589731233814200183592870043164683201721808249461006335016128386792850049050157323918121395138801540445531429393826014216001613113577280131114374752350556601255474380455599559012266138554495773560111228880765193063201054537215220086996010232279450659786410099479197177577267800937002784180661051008137912875853417640074898124140933831400716542177224839655006530038928060397620061607366323256982700546012294278670143005123982420921758760043135165795695192900474160420056152451004163532519220263070033349533681560090500363485526990883128003110916711194726650021779399194057042600226114741238153140002349425087010837510024250428565704795400246904315171172287002,
  244286508109222340432745849238539825404230353411241863635041329891331226760670403524047921890782903936990558559893748038381403230961105040373861746482912120603638383594487359676035374387541440554680343582258166698794703333611834448955145032309144389520836470312786068910782551203024592594127363126029212526093802070790281797303217218675002714867200873373270026120233298928252240259501402853199466602573331070675239079024552439976737350460234060011315171581202229090476400155199021203085763631135080201380457788284933701991301323795318297019587111859446703840183667896531296327701722243858014242256016130835219761734590157457000872497002801541144251891368925014219540773508419310131131646688249965101256285361906357137012269796573106632780111244705130979622401055192558883908931010234872546343355980099577018747299816600937353761184585650008139107399612311010074936573212999447500716658826201276054006533361619889654680061616212158620069100546231205967164472005124482660403362050043145630887485448800474358527181099499004163866057369783260033354384686324880400363542904045200644003110962567818038690021779373038576116300226105026554235973002349198021645476600024246857021147479300246860356113415928002,
  255823217984746440432872874303665941604231728322612077926041344516797561059170403676896686319915903938559454267739939038397214398108010350374018141907222526603639901418542149706035388835193390501520343717088172515993303334844989601544381032320193117325119310312883004741089029803025425009682988028029219519323201005660281854752703024702602715328459881548299026123850922172276190259778403082241436902575400555070183078024567516591335468680234167046391477587302229830482823621876021208064541346945740201413031085410993901993371979583280865019599890856928999070183744393112578126501722687603037867397016133327144546090240157592326899497894601541854117257387873014223133192925371820131149163033460076201257107094763021387012273499836644343020111260711244789624801055854854186231030010237490888665867530099675708125477076500937707550917895186008140310481904701980074975265459239412600716776116069505872006536699843875804540061625092197436475200546450789946983549005124984044509438580043156111854261116800474556783607763577004164199591253051990033359231741791010400363600180217875573003111008267121316710021779345377398309700226095310229533146002348971215274224350024243291394087324300246816479375982337002,
  267891121308282400433005625273778847604233163883360047784041359773313431448990403836193295685003403940193024559552613038413662168692432510374180684329525905403641477446509218163035403823059488503520343856830955240636103336121902064991127032331623388514093670312983195981469939103026284591234791404029226734159720105810281913968428006486702715803465051821543026127572951534164680251006313752922323802477525882917313771024582985939256799410234276769785889583602230588386682167802021213159111020525020201446331780738038701995486963300031898019612931656544717620183822386652299718801723139625678516872016135863281543743130157729930972482869101542575290012025234014226779598948290980131166926903132644401257939706241835466012277248839269861410111276900926605117301056524164442493059010240134684759709000099775271649240712300938064171386454707008141522169806286900075014201997512853800716894049192723692006540053642963374090061634006501837232100546671046766027832005125486572890280260043166608668293062700474755188658676597004164533119846153740033364074840173869200363657355579197260003111053809442857900021779316216102017100226085592305294350002348744667575646360024239731670078764800246772684727851170002,
  280514045192696700433144353443549119604234662696558767180041375687353841513880404002202040866345903941893858058155930038430771410296847010374349607961026626203643113840186726368035419370686394000010344001659571569344903337444071395306623032343447914276685200313086747983197653903027172192067303005029234177353415400750281975002514868300202716292609016363256026131402270401866170251035581248582240402479708491054636871024598857755786412330234389245612134423702231364598027756671021218372017203371690201480375179470689201997647166324816438019626239279249164900183901904470174882801723600069337288195016138444355832285220157869848351414775701543307934776139892014230480728041853460131184941447506815901258783324871864879012281044079776131650111293276011738985301057200553440989683010242804143104544560099875715690752253700938423640677712528008142742510557608660075053383948381148500717012627937031957006543423060089410300061642955133818253800546891976968270588005125990245189282050043177121301788767900474953741656838600004164866642128161830033368913973744788200363714430199892655003111099195120495010021779285560247006000226075872822538333002348518378228222440024236177834722162900246728971938865688002,
  293716857083036640433289320835713205304236227473885882756041392286472738282330404175197727800535603943664643875713000038448567931850369500374525155653025064703644812839039939234035435498304216399390344151752962836049703338813046700179893032355679813646071180313193769376894089903028088691209645166029241855851550349690282037908559368481002716796295129333522026135341838157253540251065663948448852002481949851457536121024615142005044278750234504539430207252002232159535774002604021223705857030785480201515176888639152601999853496773950688019639818835539491260183982974347387108101724069079702522483016141071103372024950158012114792309513201544052218331726055014234237325646178100131203209852248387601259638080506384977012284886061623591560111309838350936712201057884085445509510010245499473533354910099977046657319287600938785976960865969008143971551564139110075092812435103401800717131854671422188006546808138183048650061651938155239750100547113581093756956005126495061042959950043187649726892825500475152441925723933004165200157081136950033373749134830841500363771404151122656003111144424491594550021779253415374475900226066151822054209002348292346910350980024232629873663641700246685340779728766002,
  307525508929802350433440800646157315204237861040023893041041409599345678591740404355466083091141303945508175392611094038467078518116170090374707579205096923003646576762896397602035452226849571603450344307296147852737703340230428215002673032368332626078380450313304372170514084003029034994179978545029249776804108764730282102741670082969602717314937746013462026139394692081570320251096583542482051802484251472052388644024631848885064624880234622718277087475902232973627875881843021229163281237850110201550752822641492601910210687979210144018653675526927048720184065624533734093601724546804783013610016143744271153494370158156766553479548701544808309647013878014238050146272300640131221735338791784201260504104334347055012288775292975884680111326589810478617401058574825197984401010248220887238492220091007927099151173500839151198487026476008145209340396360570075132488583632037100717251731767756256006550208920165092820061660955627825667700547335859678603390005127001020080969780043198193915687436800475351288789287448004165533663690126380033378580315814654800363828277504478894003111189497893055630021779219787007113200226056429344402599002348066573300355180024229087772594901400246641791021998856002,
  321967083184436240433599077706927371604239566337233277866041427655814130688090404543304174769883203947427354173819123038486330965399959340374897139683884504603648408014731278150035469577989387672780344468480421828665203341697868927042652032381420324403481450313418671850132145703030012033750525503029257947569454775270282169558509190880102717848962508840289026143563949306154980251128362270282452802486614897547934483024648988832981186750234743850698065303502233807311512841158021234746995193629850201587119208879821901910440825784821560018667814647431803270184149883754872186401725033394941648737016146464617346724580158303840401845888401545576379901819099014241919953598495590131240521164684696001261381528891921059012292712286735768990111343532272282521001059272837921144676010250968596777738500091018239517127788000839519323589383847008146455924789842830075172413522608192000717372261600747476006553625448947584050061670007613163107200547558813254996699005127508121926124800043208753840192902500475550281571970307004165867160943162610033383407509134208100363885050331979930003111234415661308450021779184680649149200226046705429916810002347841057076487890024225551517253041400246598322438085989002,
  337069840690018990433764448967865570504241346430105147331041446486931471770840404739020848755996803949425194027553283038506354118521317090375094107752852595103650309083545851159035487574145483082370344635503561552491303343217076249179240032394957328158422570313536787483609528903031020770733715788029266375720143584990282238417334307186402718398806640509055026147852808809471960251161022934311474502489041710284770205024666572530320474260234868006778690407602234661033275365198021240459759953891730201624292593491966701910675859103617358018682241585099131240184235781219662199801725529002929486346016149232911452312780158453373619319493601546356602513146153014245847520567461000131259570623935439201262270488074117248012296697560581230100111360667634006874801059978189321184121010253742816080377680091028642571006052300839890370683369910008147711352645320040075212588383357163900717493446547941693006557057767433378240061679094172701760900547782442351193697005128016366194414470043219329472368112700475749419598706202004166200647831261970033388230707282642500363941722706068130003111279178132312990021779148101786419800226036980118704083002347615797916936840024222021093420393800246554934801247845002,
  352863270542936770433937223997599944504243204510500235351041466125010744303400404942937181579891403951504825211243628038527177909090933730375298764013372169603652282547342028400035506238519941644150344808570037026314403344789813744649095032408958517314325120313658841827220079703032062194790008977029275069048886830840282309378041387958002718964919244305656026152264553461479170251194588913412005302491533531103333343024684610908405127760234995258177354016502235535249355061047021246304393332652470201662289847180020901910915885738023013018696961823539281150184323346627617743101726033783920275824016152049934454299260158605404009252670901547149153161045525014249833629484369380131278887047363052301263171117146486171012300731637001800220111377997809154357001060690945590432935010256543760453275360091039136915691297100840264358266821649008148975672028764230075253014299883797400717615288989698366006560505918515721060061688215367753347600548006747491520349005128525752495022670043229920784111037500475948702194927192004166534123348423570033393049902808062700363998294699606018003111323785641557670021779110055886417400226027253450646704002347390795499829750024218496486924343300246511627885585785002,
  369378142004256930434117725504641120304245143902681317555041486603674236194950405155386949957345303953669498789967158038548833395138286330375511399357507127603654331076196090747035525595121308933260344987891229746488603346417902904292427032423439246407847410313784961435315585103033137325257964478029284035574676464910282382502208734300802719547761611840426026156802552116395700251229084176636081902494092020230757431024703115153869505920235125678158516255002236430425738322928021252283770992863680201701128171137329201911161005314531490018711980943489821420184412610176457433301726547895545424614016154916478974868450158759969902960968401547954209814727818014253879072115789120131298473802950120301264083552756897774012304815043335076590111395524727175912301061411173410038539010259371646586968970091049723209661500100840641304920143396008150248931171457520075293692408867806900717737791309171592006563969945077822670061697371259491051300548231729196371545005129036280430346250043240527747259220500476148128686569607004166867586491627720033397865088313346600364054766385872996003111368238524058080021779070548398357200226017525465403226002347166049503239570024214977683637160400246468401466040948002,
  386646558542564100434306289879368679104247168068646391730041507957904952260680405376717117820533103955922591152684738038571352802135706830375732315332890905103656457435434776865035545668791635770660345173685657831513103348103224977830753032438415359088619110313915276773113282203034247212007142028029293283549071156330282457853142121620602720147807538354437026161470261754946810251264533297386133602496718878186980118024722096714289686120235259341626590490802237347038403638517021258400827556545410201740825103075385901911411319315226142018727304624401368040184503602569762189501727071497929416996016157833349430898340158917110166316456001548771952758936475014257984649789483130131318334296198362301265007932947399432012308948311803448120111413250333575260301062138939952655364010262226692561767530091060402114978882700841021229306468588008151531178470061610075334623849659074400717860955892291101006567449889992434750061706561908948965800548457387982210392005129547949596013320043251150333590262100476347698400079981004167201036260834830033402676256455946200364111137838561835003111412537114355550021779029584753223600226007796202409564002346941559605189600024211464669475820100246425255318390327002,
  404702014093206590434503267757719166104249280613670228852041530224100046802490405607288341433561003958267608691802365038594769565466336960375961824520092364803658664488917015364035566485234395099590345366179208203203403349847722860751037032453903203094367340314049922332690520303035392936314431886029302821462649323300282535495921081572102720765543645775185026166271229677193930251300961467876488402499415846710496946024741567303930087950235396325160496838802238285573522600106021264658557734690820201781398523352196401911666931109803469018742938646046910880184596355024738960301727604753725690228016160801362192373810159076864206412800701549602564620581410014262151173495093380131338471970486996101265944397166153917012313131979551024110111431176590013846901062874312885142097010265109117853859200091071174297301490100841404150171820699008152822462486685170075375809764272922000717984785127743141006570945796121428110061715787377021533300548683724361568077005130060759580902040043261788514822309100476547410662420917004167534471658983530033407483399947697100364167409131775403003111456681746515980021778987170363835800225998065700880278002346717325483658010024207957430401840200246382189219242920002,
  423579451622156240434709024607418428404251485292062183418041553440126289632780405847475493241846003960708192651761774038619118374384996250376200250922882957803660955202424682572035588071043299370730345565605376033249703351653403038414443032469919645665764250314189036752273597703036575611764428005029312658051632991600282615497446364636402721401469713701885026171209095747074580251338394513921967402410218470970416153023761538909608984340235536707048897097402239246527664686100021271060017477264740201822866661203685001911927945988103235018758888890155055240184690899280092204001728147828152973334016163821345742684700159239271978303034401550446230395635686014266379463985713530131358890307433895601266893086279457379012317366588680771800111449305474416276201063617360371267796010268019143341430170091082040425894774100841790086345273605008154122831948949940075417251297385310200718109281406951522006574457706315370210061725047724463002800548910738843043493005130574709967158960043272442262614545900476747264801076825004167867891691989770033412286511554629400364223580340023291003111500672754128540021778943310624898200225988333999809592002346493346816583520024204455952421105200246339202946035850002,
  443315324086081820434923941337632178204253786013148434662041577645377640408530406097668205126784903963248124152554557038644435217522575330376447930371829924103663332647165869071035610453732046321910345772205511673136303353522337589050097032486482089413326520314332762938909979503037796385174471479029322802304686771370282697926488611755202722056099018503679026176287594689798110251376858910060469802410502729420143322023782023796685162600235680567326123426802240230408005875579021277608325143616030201865248101079647501912194471193152464018775161342067477280184787267604004303801728700889032092568016166894140840823430159404373991810354801551303137476296219014270670351880356060131379592827259525201267854142583836693012321652686291854200111467638981076164901064368151074425379010270956991310788710091093001173643160100842179056739110893008155432335750052180075458949596327986900718234447124058257006577985663413100160061734343011886869700549138431931302746005131089800330217680043283111548567662700476947260144059654004168201295368744490033417085584096759900364279651538218336003111544510470304500021778898010913062100225978601137972627002346269623281869610024200960221583697300246296296277030559002,
  463947657883832010435148414932942554704256186847487141808041602880835008918980406358271431761692203965891329394264015038670757429986319980376705210941654787103665800003394255762035633661765021982560345986229075292520703355456666247349406032503608488649102930314481248194615971103039056437545012212029333263469896383850282782853738264546802722729958680721127026181510558443287320251416381795016784202410794547135349811023803034515168147000235827987808813932002241237732541166731021284306662693659010201908561789086012201912466615954732026018791762092420967610184885492802226585701729264106823251239016170020600685513010159572211318413146301552173475678413852014275024677767326980131400583089153745501268827709818229249012325990824517183400111486179120762505001065126754160354769010273922885462505170091104057217061623600842571080348985181008156751022948826370075500905811083675600718360284675904661006581529710241312920061743673299765344000549366804127079432005131606030238817730043293796344224362800477147396019914725004168534681701113140033421880610447920500364335622801673575003111588195227675900021778851276586980800225968867153926541002346046154557389800024197470223983726400246253468991308992002,
  485516118898072590435382859112591051904258692033325289270041629189128281561680406629706034787075103968641885048925266038698123742109912320376972453382808687103668360564148294024035657724588990413590346207933899456221103357458598530410562032521317366196112570314634644346093322703040356985035944639029344051061931209980282870351856743679202723423590020960789026186881918564845950251456990987514695802411094115743767279023824583905954274000235979052133267533102242269030301061894021291158276900136610201952827039534859001912744491523471785018808697338854322320184985608226281942901729837654663786157016173201591081268470159742825598204258101553057437269190009014279443292308504800131421864691645414301269813933176242303012330381560561174430111504927920826445201065893239299872412010276917050917553980091115209236307239400842966176254076041008158078942769801880075543121094281117500718486796462011971006585089889614133460061753038648428795300549595855927174130005132123399255023030043304496621069826000477347671757726285004168868049703932950033426671583535544600364391494206098628003111631727358394440021778803112987362500225959132086011600002345822940320992330024193985945759164100246210720868769747002,
  508062081229713920435627705015964530804261305983306331293041656614600697229260406912409388549815803971504023846221620038726574329909154800377250031567731689803671017739114011386035682672665800711740346437586459877805703359530415927841600032539627830688929940314793107878111437203041699279969596008029355174869395492300282960495528926090002724137548924480424026192405708694284920251498715002444853302411401631488752741023846685107191084940236133845793531437802243324841572090215021298166480582320690201998063541603924001913028211205482661018825973387740451760185087647781780529301730421708406408342016176437990606425930159916259046925700301553955216995146897014283927056344532350131443441272974852901270812959318493784012334825456737707390111523887425308545201066667676671610238010279939714223467900091126457915190740200843364363617247471008159416144603260700075585596601190135600718613984884562104006588666244332700060061762439118065224500549825587824454482005132641906934240650043315212350532204200477548086687123294004169201398395012000033431458496340489600364447265827596622003111675107194130310021778753525437031300225949395972352352002345599980250505050024190507373091675200246168051690124397002,
  531628698731690050435883401915337412304264033291438074596041685203375658748430407206836008175952703974482140359748310038756150867300847450377538332952277710403673775058615378309035708537506142680170346675462154594227203361674474157879628032558559594379162840314956800070654233703043084611861062166029366644962372928940283053361516952452802724872406214666596026198086067074762550251541583067395965202411717295334516939023869351560772519110236292456180234837202244405718121437870021305334653861504970202044291366107309401913317890397533487018843596655944046950185191645936850155201731016446657932949016179730690783151780151009255446307928701454867012110370178014288476841000935510131465316511469187801271824936385035729012339323080508303650111543059695046499901067450136964762447010282991103360500580091137803941188057900843765661685204865008160762678005292120075628333489716646200718741852348378494006592258817184743300061771874768719722600550056000307855280005133161552825239840043325943503983088100477748640138284924004169534726795127340033436241341896838100364502937742660872003111718335066070920021778702519240981200225939658850858773002345377274023739720024187034492206448400246125461236893664002,
  556260979452683600436150417956920388804266878740330575748041715003426069013470407513458200772840303977580797000795774038786896580144250650377837759052801241403676636177736285316035735351704383435700346921845591812510003363893205491428479032578132991459882710315125887139932798203044514308476598152029378471700169465710283149028715396640202725628748035607953026203927239132601940251585625139556893202412041313073612640023892597018967365220236454972620181941202245512223425754957021312666245438625640202091530972378974001913613646622779555018861573672605108400185297637730682359901731622050818502704016183080596249453420151027175523511382801455793022405027997014293093527795163580131487494125920574001272850014007858811012343875004520503480111562446807783312101068240691381840076010286071447747798530091149248005451861800844170089788650920008162118592697844270075671332920397616300718870401260906679006595867650944166800061781345660293937100550287093862378348005133682336470170610043336690052737999900477949331441946087004169868033928022880033441020113291708800364558510028171539003111761411304919840021778650099686433100225929920759227378002345154821318497330024183567289372034500246082949291403746002,
  582005863105698020436429240931306065604269847308714193148041746064646284179850407832766740584576503980804730226844743038818856302166558150378148725939418534603679604880578312643035763148974518258120347177030886687341803366189121145977496032598368996923502900315300540383368147803045989736920794400029390665739259269650283247578207830095102726407176243975508026209933580117399010251630871922997577002412373895436729154023916435551183570450236621486416718575402246644932904212367021320164773894389480202139803215270848001913915599567051702018879911080948716130185405658782195979401732238705121312178016186488624933212840151045390534868969401456733450234167527014297778008744565920131509977875967315601273888343323479809012348481806646460560111582050858275932901069039411641434232010289180978249580000091160790802823090300844577667342441021008163483938568775840075714596056396005700718999634032194960006599492788370630060061790851852545547500550518868969092856005134204257404582640043347451968056860100478150159929403094004170201318820408240033445794803665061900364613982761392514003111804336240895790021778596272042888600225920181734942253002344932621812572210024180105750900173900246040515636782561002,
  608912301680724130436720379074441890804272944179248295313041778438926779498100408165271568952371803984158856972199303038852076532835715600378471664745971428503682685084658594706035791964187269913230347441321967295324203368564813751413167032619289245967946110315480936328650668303047512304753282745029403238041438929340283349093324814435402727208308810422898026216109557803742300251677354886336697102412715258204838927023940881550870979870236792090890886061902247804434155880542021327833829012255450202189129352267207301914223871115713007018898615640121358160185515745298819346301732866596672836995016189955708228263270151063904939402140501457688500546792307014302531186475307300131532771562477912901274940076985611934012353144070021741760111601873958404366701069846369980986946010292319927181324050091172433031842467100844988413845737994008164858765671902640075758124063495644200719129553074875072006603134272209130500061800393405087737500550751326105135370005134727315157444480043358229221144476200478351124932519035004170534580501956410033450565406209512700364669356019968118003111847110203731320021778541041562187500225910441815276245002344710675183756630024176649863145640700245998160056956089002,
  637031343325305640437024361900303051604276174746631510707041812180231626748610408511502519960798603987648281308432625038886605497245985510378807022197238628203685880845452214393035821833408371693750347715032890079157103371022959889790486032640916053966335900315667256886985554903049083461135736239029416199882195073480283453659703356466802728032780230725635026222459755255900630251725106280804230802413065622323743279023965949742565137240236966881423376727902248991327201503945021335677073124644430202239531050717105301914538585391091578018917694227054171360185627934085392634501733505915493574015016193482791172526550151082723257329885001458658380915221024014307353974332228730131555879027938026301276005369177917241012357862383084338590111621918237281218101070661639159570216010295488528315966570091184175394762018100845402348882165813008166243124227044280075801918110096062100719260160804142692006606792145189584990061809970377388666200550984465743710158005135251509251161850043369021783151000800478552225783729262004170867818005301930033455331914170134400364724629881919909003111889733522671820021778484413478564900225900701037292074002344488981109845880024173199612506071900245955882336644716002,
  666416219621617330437341741066482371104279544626024804088041847344678885809140408872010072681961203991278301342586208038922493208083875210379155261153957340003689196361083705594035852793938070548150347998488165043795203373566322711195935032663272437015916640315859689510637007403050704698009949049029429562859290743780283561365347860838102728881241946884212026228988873656874530251774159158707267802413425214021066308023991655189074894450237145955497305875002250206224729748945021343698242482767600202291030395186726601914859868790497834018937153838353478870185742262553192040301734156854559299173016197070832628237890151101850070818806401459643301564732311014312247296489664200131579304156840417201277084375626844540012362637339613893900111642185841361740801071485292460673659010298687016890106590091196018597556575000845819492119962973008167637064620068090075845979367207327200719391459637738037006610466450026415800061819582828770957700551218288354089551005135776839201597420043379829625172430100478753461816046823004171201030366039190033460094320844275600364779804425643536003111932206526474520021778426393008703000225890959437843343002344267539268641940024169754985421807900245913682261359542002,
  697122436393412650437673091273957740204283059661799059034041883990624016323800409247366130959114403995054416361306380038959791529744022040379516861176233820203692635977172363396035884884351887557570348292023090992848003376197754627877670032686382133082197520316058427354885566203052377551307793903029443338901575917020283672300692615741002729754362778417138026235701735203208290251824547392307433402413794264925744674023101801329881649650227329412741814346402251449752347997736021351901148650423540202343649894933325101915187850024833842018957001592218936940185858768729076857701734819609842846678016200720805464273800151121290024741209301460643475403494963014317212088063212370131603050876077830101278177253614548947012367469538771135910111662678934554309101072317403694999359010301915629610219450091207963349935274500846239863312134945008169040637402930150075890309008444791000719523451995926377006614157229418133900061829230818411179900551452794401614248005136303304518089370043390652718251055500478954832363067797004171534216622720530033464852619581365400364834879729905506003111974529543407370021778366985351789700225881217053575697002344046349337958700024166315968375728500245871559617398791002,
  729207868181436340438019011202346325304286725936619283230041922178746419355120409638164831705183603998982334229395995038998554244667100180379892319105941562403696204191836222030035918144542674306830348595984101103410403378920200088892230032710269623754865490316263669444517143903054103602193882677029457540278027773220283786558665848495602730652829364079006026242603286067014070251876305693118630602414173012190064180023104503983329697010227517354976517207602252722548837769020021360289679922176440202397412491502710901915522660157803663018977244730389679450185977491264761276001735494380356417258016204433696740604720151141047827441263801461659118052788319014322249295222474550131627123155338870501279284161991896979012372359585137527200111683399698331382101073158047203265449010305174604658878770091220010365353039100846663482296605759008170453893293714960075934908210023821400719656140301478506006617864526046923410061838914405339329100551687984347693703005136830904703470530043401491033375949200479156336758976669004171867375816853620033469606803782718800364889855873840070003112016702901247980021778306195689572200225871473920927864002343825410995625550024162882547893086800245829514191844181002,
  762732856531083430438380124482002073404290549780877981819041961972139222653170401004502338272412303810306797905152825037103883712197398570361028214966872337103599905660859698686035952615764004709370348910729119145011103381736698437572128032734960156632377030316475620844964664703055884478341770990029472179607026389400283904234755388353202731577346614241278026249698599426680490251929469631633881302414561698614293377023107275091474965100227709886256813553002254025266414842723021368867802766293530202452341566452098601915864432645732836018997890620118825520186098469446212241401736181368194420222016208210507894896540151161128251509338001462690447877513293014327359875304766640131651525007506874801280405261191555550012377308088755126040111704350331840907001074007297859017203010308464181700985960091232160361022059400847090368996369149008171876883176672830075979778150754486400719789526979651168006621588382578228080061848633648438326300551923858649806826005137359639254087550043412344541483429500479357974338551589004172200506992900310033474356866901362800364944732936946109003112058726927282830021778244029186412300225861730076132780002343604723919492400024159454710541356900245787545772557364002,
  797760312241548280438757080704363571604294537782490698762041100343640242717810391046858293109739203810731749910616096037108069798847286670361068688609623303703510374520303005287034988340674943025180349236627926657277403384650386854180978032760479768352600040316694492838226278003057721855244568886029487269865871690830284025427075974714802732528638174179113026256992878567761090251984075657490205202414960572773966360023110116303392471120227907112920072949202255358570994169077021377639563292840390202508460949200174901916213303378005749018101894675617670920176221743203174940801736880778576855733016212052254931280940151181536134564556901463737686016997859014332544796929806630131676260489061807301281540713241166480012382315665166661670111725533052018211101074865231071446572010311784601890008550091244414057923262700847520543419638653008173309658102254620076024920012036193600719923614458167498006625328841660337060061858388606443502500552160417761502348005137889507659820090043423213213457531000479559744437169709004172533609198273790033479102802441829500364999510999083970003112100601948305880021778180490989343300225851985555218598002343384287787434070024156032442930066000245745654148176343002,
  834355821731424690439150556472011773704298696797067195551041104663973953668150391090950946321391303811173727506099408037112419680211845620361110708076927258803510772780564797057034102536338623005580339574062541409909303387664503386191762032786855308287351460316920503103687691503059617457560842698029502824400547625850284150236438249939302733507446898513315026264491460055583760252040161120080730002415369889149867199023113029305803765280228109143632714326602256723142459644085021386609088747341700202565794925006376501916569410718129410018104042076288321800176347353118827474401737592819893242547016215959968611313430151202276380045664101464801056416097443014337805040115389010131701333700485167401282690681776605006012387382935455824730111746950093698339901075731922788219306010315136107874225780091256772180817767400847954025659997218008174752269287144540076070334977852309200720058405167197433006629085945923971180061868179337942099100552397662132399379005138420509404099710043434097020130476600479761646390812178004172866681483336880033483844603959975200365054190140472297003112142328290618050021778115586228121500225842240394009786002343164102277353710024152615731710639800245703839108111904002,
  872587757681525790439561256489950279604210303395847221869040109165305779635710391136849473755792003811633392847961629037116939572800497030361154330588250079003511185863021773862034106372950793063520339923427607477480303390782390068685928032814114462919124030317153875903978895803061573060496712483029518856935739671530284278766419476691602734514535337061317026272199816981139860252097764289623326902415789908260770128023116015823887873560228316089438193334102258119674938833029021395780589030413920202624368243081241501916932895545432745018106232039616961980176475340439566225901738317703747098583016219934694647147360151223353958010266901465880785856594948014343141596394049910131726748786667977901283855332055325761012392510526287772200111768603709728869201076607449498310669010318518943802983510091269235458258339900848390835896546043008176204768114291470076116024234764732900720193901539337990006632859737981873670061878005901372770500552635592208188413005138952643963929540043444995932283144600479963679536069684004173199722901399840033488582265062795100365108770441685117003112183906280025770021778049320015283300225832494628128189002342944167067188100024149204563576235800245662100442544110002,
  912527394121784010439989914699676889004210755668979030755040113855007217096920391184625725140705703812111433062930445037121635921697715310361199615413140990903511614301832263777034110348619858685590331028513079727085403294007496137438563032842285780918761350317394842275998965203063590491225070593029535381585111894970284411123436020567902735550686232355440026280123562281843080252156924378695215702416220896798989185023119077622108635550228528063805914097402259548877082724790021405158358243771150202684206124829781401917303901297409370018108465354567022050176605747084923394101739055645000978092016223977493896936270151244773905942514801466977103988899414014348555468930726940131752509937321793001285034830969792243012397699069949843710111790496171083172601077491888234847704010321933355332953120091281804622600821900848830994394052188008177667206132936190076161988971908377400720330106009593628006636650260428392340061887868355025076900552874208430631636005139485910809903200043455909920645525300480165843210147300004173532732508717860033493315779408227500365163251983648626003112225336241840670021777981697446200800225822748292994111002342724481834910870024145798925261595700245620437942418816002,
  954249026135532960431043729545767418704111227271470962500040118740741319758990391234354324263376003812608561160028477037126515408694646550361246623942229051803512058649769136802034114468221592282870331065959322587784903297343381337336417032871398698943437130317643640227246778903065671630342876900029552412861850017850284547416817640197502736616703029096783026288268452138809450252217681564243424202416663127768794909023122216505058755540228745182681082822702261011472350606795021414746776263061080202745334272230033001917682574012714500018110742823684433510176738615657618655001739806861822074521016228089442562499740151266541329569338301468090243364050072014354047672641432020131778621387392846501286229347060995161012402949204392502900111812629766974180401078385316577961553010325379589634404160091294480410015571000849274521503096343008179139635058639220076208230380985722700720467021015356570006640457555839076780061897766757038999700553113511237563979005140020309406224010043466838955897200900480368136750869654004173865709364489130033498045140704973300365217634847638149003112266618500877980021777912723599132600225813001423827260002342505046258537450024142398803542878700245578851399444120002,
  997830094360762870431090419476000419204111719006934030703040123830473885247290391286112772784026603813125516974707366037131584960700206790361295419760592387903512519478846146542034118736796914790320331104724987807332403210079371932882542031901483568174618230317900514937597383403067818413367496720029569965689476959740284687758883627006502737713410395811164026296640389452292680252280077010080718902417116880627752677023125434318320869580228967564535518830402262508199300140569021424550310337911020202807778876348561201918069062374823398018113065263312884840176873989453745971901740571575728392645016232271632389260560151288661403685256601469220439466023439014359619234312926310131805087417479237601287439050532055616012408261573270486680111835006804968565001079287812657646023010328857895397479800091307263560498873200849721437660218920008180622106773303890076254749656261237000720604648996387025006644281666770260790061907701165404449000553353501062893978005140555839210724780043477783008667800300480570559496686157004174198652530852570033502770342712302600365271919115275166003112307753381456110021777842403535281500225803254055647918002342285860016128680024139004185237509000245537340606086933002,
  104335131447495000421139144151475658804112231711448340308040129132485057675380391339981557810244403813663068146289435037136851758440935690361346068723576691703512997380964587673034123159557290685860331144855004837133403210436230119517818031932571681616367820318165718966668789003070032832273081086029588055412947595000284832265020838683102738841654758986298026305245427396984030252344152889877243302417582441431041823023128732949345955880229195330419441086302264039811882729926021434573516719649250202871566625995112601918463517756361395018115433503812183690177011912473097687601741350011635497140016236525170868486550151311139372985881001470367930744349259014365271192723417460131831912354251275901288664113261915774012413636825984175380111857629611101428801080199455156624554010332368522838480720091320154817884350700850171763388066022008182114673325198620076301547994555777900720742992394793445006648122635758657510061917671637960770500553594178336604587005141092499674886530043488742049537465100480773110786675883004174531561072885320033507491379239871900365326104868524268003112348741207395580021777770742298847800225793506223277887002342066922785794830024135615057204016600245495905355569521002]

/-- Rows from 1100 on. -/
def besselRows11 : List Nat := [
  109089681185701970421189989886416337104112766254836704919040134655381361058630391396044263363944803814222011129851773037142323245459167810361398639035141757003513492968580903211034127741890292689960331186395779450147903210805303905344020031964695302174837620318439512466927040403072316937068012545029606697810029576220284981053763670947702740002304849972533026314089773058913330252409952410658135602418060102978814264023132114328349415230229428604014247199602265607079744270509021444821042317133820202936724716518495701918866094264114968018117848389779764260177152429429627215501742142397903844430016240851181441855330151333980552910160301471532958647035967014371004598764281190131859100570874936701289904708819117167012419075617721180120111880500529991433401081120323313224964010335911723706157400091333154929854357500850625519295534231008183617386928976870076348626595240971000720882053655012682006651980505320949100061927678232396265100553835543484754185005141630290243858530043499716049037310300480975789960552693004174864434058600490033512208244147534400365380192189690069003112389582302018160021777697744917082100225783757961341573002341848234245700070024132231406341885200245454545441866057002,
  114055426162719160421243046555825846004113323541986709848040140408108179044090391454387685876990603814803172243723633037148007137419380600361453201328817177803514006875395893826034132489365341266260331229395240470179903211186996977198478031997887691540261970318722163402680695003074672837414456201029625909102977205190285134246876013116902741196252264933715026323179791155701010252477519836817449302418550164966651923023135580429225146440229667511686302555002267210788531369636021455297626381124470203003280858745703801919276948784732946018120310780275376680177295585762052126901742948966386703266016245250803708364560151357190330491472101472715767653808376014376820515562813070131886656487438467901291161012475666122012424578609498148750111903621924956409601082050496924262601010339487751288010070091346264647951366400851082726077914862008185130299965694470076395986660233558900721021835223790220006655855317953377290061937721006247706800554077596929477538005142169210356476930043510704977649880100481178596358669913004175197270558944590033516920931345154000365434181161414268003112430276988145960021777623416400342000225774009304266984002341629794074065910024128853219591393400245413260659699216002,
  119241503427317020421298407738203114604113904514223006657040146399962696984070391515101953856328503815407408753808823037153911431732909100361509828751351020403514539757066202705034137407739624207450331273902887923277403211581725879769804031103218313989345280309013947775120572803077102704291092476029645705970505557340285291969435234342302742424412038145101026332522007841979720252546900514659226702419052934139184741023139133270477961860229912182541757607302268851740203129905021466008102217663780203071263288066479601919696241031127559018122821549049005480177441427644599259501743769952478670910016249725193633612580151380774165217613501473916605309660950014382720018606019400131914584571382168001292433201220988093012430146468202788840111926996178129433801082990056347930354010343096860416594230091359484727589342700851543404517037424008186653464982824890076443629393989677100721162339550160316006659747116131339020061947800016899864700554320339088987048005142709259445285000043521708805809612400481381529322025663004175530069647795540033521629434792420900365488071866672748003112470825588100780021777547761742143500225764260286286745002341411601949175580024125480483933464900245372050804536788002,
  124657434707882250421356170863809225904114510150731686971040152640607322920950391578280651864060103816035609995982084037160044417511523850361568597049137691603515092291938767882034142502964201729870331319969842652704303211989920409588649031106761699645925510309315149853563637703079608771700123637029666105560072171940285454349918248024102743687723228936868026342123114601805230252618140897476429502419568724446930967023142774916174679260221016274848241156102170530753348588759021476957398930914220203140700773665442501920124133589585089018125381584772051750177590001997893464701744605595164791084016254275523761470550151404737589899765601475135722258726797014388704195865450500131942889337931335101293721453775969181012435779866636112170111950625690575359901083939082506697680010346739307475835000091372815928065105100852007575481412120008188186934694272900076491556003499119000721303569085426050006663655942308977620061957915321585027200554563770377573663005143250436936552190043532727503903297500481584588192267469004175862830401959700033526333748498662800365541864388772514003112511228423703110021777470785919215600225754510941439164002341193657549377710024122113186389508900245330915672588297002,
  130313142157968690421416437368694646204115141470038650132040159140083604633510391644020948962888503816688698537851059037166414685860716930361629584657514002703515665181808955852034147781190302663680331367648897440208503212412024020608882031110422570093007320309626062413064511103082193338419680018029687125500473832610285621520289703294902744987149522592192026351989972229950950252691288571178926702420097857206423154023146507476914243120221041934426264097502172248663509909884021488150543195922510203211622627903974101920560791967595748018127991791271827480177741356499991896501745456137070280711016258902983428173410151429086211550554801476373372278468031014394774147923090760131971575350532436201295025950607087948012441479483554899690111974512882407838201084897656890216312010350415350407348280091386259012569680400852475259926371967008189730761980385500076539767698279561900721445526283139497006667581838918777810061968066977382533400554807891205608415005143792742250293600043543761042270534200481787772311697120004176195551901169600033531033866522662500365595558811348768003112551485816271370021777392493891554300225744761303569154002340975960553090150024118751314021273200245289855060801611002,
  136218964727795660421479312854703967004115799531543946259040165908826660479480391712423731782334403817367631381216053037173031140523868220361692872793015053503516259152703110353034153248775817482500331416994569677385303212848494241705365031114204681578312650309946986978561588203084858769802772051029708783914766095830285793616092353227302746323679845510953026362129614903975950252766392280481710102420640661263683929023150333110817226590221068210754741190702174006323511420448021499592661061773640203284058715854036701921006384642412763018130653087769397520177895539597565162701746321824510870916016263608778978843480151453825712271211201477629812314185794014400930988098297260132000647221292444001296346873940634246012447246003714379390111998660192906772801085865861558234057010354125248716765920091399814748199627800852946478894213354008191284999887959570076588265690370715300721588213599081727006671524848371158250061978255041218291400555052701979543146005144336174800289540043554809391204173700481991081023275706004176528233228081390033535729782972469500365649155218362011003112591598086621180021777312890602473000225735011406329323002340758510638804120024115394853930688000245248868766859657002,
  142385675185851310421544907255683192404116485437114149085040172957680142405160391783593742366570603818073401206606177037179903008888846920361758545548684601703516874955686274301034158912291994096280331468063155632361203213299803106424813031118111905951582320301027823407573000202987607499623972406029731099433513477680285970776539651053102747698328994963899026372549254349048090252843501955665032702421197473161118277023154254024535081360221095117897139532902175804603794595782021511288979785635440203358039464986286301921461083110351076018133366409120820180178052600517227655101747202907543770792016268394133986487770151478961850148000901478905302513857634014407175842575817490132030109611421482401297684407777019980012453080117911138560112023070080636289301086843779143517380010357869263480074300091413483905968385100853421253514336945008192849701630250470076637051194328511300721731633491242908006675485013054071580061988479569864335200555298203101912362005144880733994105300043565872520950789200482194513670628044004176860873468272160033540421492005218900365702653694095104003112631565555064530021777231980978663200225725261283180936002340541307485087360024112043793259717600245207956589177048002,
  148824497815624050421613335010122394804117200332734881576040180297911750084540391857639720969712003818807037661310875037187039853368926660361826689992537116603517513367695861900034164778530342471630331520912786357979503213766437595332529031122148234082406240301062012348871629002990442031975025937029754091208378270340286153144610625979302749112138283758587026383256284097480510252922668739917985302421768637307887605023158272474279495420221122670219920457302177644392759086062021523244829698146300203433595875014587001921925061936835128018136132706061821640178212589277018228701748099640019258558016273260289473474250151504500460157921701480200106263299753014413509850534866110132059967231678648001299038737905178005012458982523026246510112047745023563134301087831492854780108010361647657349953410091427267260817570700853899605003386851008194424920586975490076686125427219180400721875788419802266006679462375332598420061998740619938344500555544394971334375005145426419233110560043576950401711124700482398069598047820004177193471710237590033545108987826945600365756054323150405003112671388541409020021777149769930238400225715510967394873002340324350770588590024108698119190203100245167118326896807002,
  155547126813459260421684715240475493404117945410225697268040187941229315853270391934674553970411503819569608692376822037194451583170312720361897396269272112203518175192402084734034170854509754355780331575603485289263403214248900091310045031126317779374916880301097298452493576202993364943210628755029777778926056272790286340867147092244902750566176200156008026394258283845040000253003945017277622102422354506153834867023162390766872237420221150882398677506002179526597109889272021535465646100666990203510759527899361601922398498807206782018138952945455954860178375556698033319601749012279632907803016278208504135522350151530447455083793701481514490221658691014419934164279288100132090224842821142101210041005191705122011464953922068600190112072687519175554001088829086479620965010365460694562125650091441165591628280900854381554665389260008196010710304315590076735489608613317400722020680847108096006683456977548543790062009038247903190800555791277982512641005145973229912499040043588043003640540500482601748150502050004177526027045389000033549792264692395600365809357190446793003112711067364957220021777066262350793900225705760492052712002340107640174040630024105357818943720900245126353779887059002,
  162565745414473800421759171939407289504118721909019594158040195899797480735310392014815427082994403820362221926084194037202148466458929340361970757705344068003518861261095956420034177147483844524510331632197227579002103214747708848165646031130624781381958400301133715628711650602996378883945635207029802182822567801940286534094953245399902752061539083374802026405563023906073140253087384441175716602422955440367028981023166611260815863660221179769424390609202181452142210769644021547956971194870230203589562598012011201922881574578302969018141828110546280600178541554416214267701749941087978456386016283240054568228770151556808826438825101482848724357236025014426449949368804840132120887256056663601210179853922217299011470995024218500030112097900084602649901089836644387468360010369308640941710860091455179681232387300854867123891890602008197607124494916540076785144960579931800722166313237657706006687468862020036500062019372510066483600556038852526237404005146521165421308150043599150296849469200482805548673635615004177858538568050760033554471316904853500365862562381216964003112750602344505770021776981463117456900225696009890047618002339891175374264430024102022879781426500245085662748737786002,
  169893045774496540421836834163227334504119531118009522069040204186254982600080392098183984048604203821186026095468648037210141142939551410362046870917494748803519572433605727719034183664948520193330331690758001221901603215263398472931746031135073609521436260301171298795278017102999486581104994186029827323697912642230286732982897701857702753599351815035270026417178469769593830253173041963605690802423571809015000302023170936367385680030221209346609798546402183421972444028829021560724456045202620203670037862462892401923374473330814520018144759201210622660178710634894290563301750886330601322946016288356235496155270151583590645400707501484203081983646507014433058384751354810132151959333499123301210320439106233818011477106544871439030112123385256734197701090854251532533198010373191763909587700091469310316423803500855356334162094369008199214217037885950076835092707680411500722312688058077378006691498071041127220062029743462580114800556287118989387054005147070225142438640043610272251403859200483009470513776358004178191005375457640033559146138815944400365915669981004461003112789993798344830021776895377090939200225686259194085348002339674956050172660024098693289003906700245045045034757557002,
  177542249637007330421917836232779255704120374377464324034040212813732578167540392184906490995641903822042212517503119037218440636860738140362125835924857646503520309599242626080034190414649785387400331751351870018875803215796520422230817031139668766897596600301210083906135253402910269084002773257028853222931097685740286937690018037995302755180768526894772026429112786758457450253260973864922208802424203989749737651023175368551743344780221239629595891731502185437051576731200021573773862574703740203752218711595088201923877382422436182018147747234220436430178882851433880866601751848277052779892016293558360004499580151610799063755343501485577839796313688014439760662896532140132183445988627656001210462780052636444011483289205682123340112149145592340927701091881993456768797010377110332488760910091483558287969748300855849207042997605008200832041978789420076885334076962495500722459807777102238006695544646881388680062040151161439813100556536077754929965005147620408452674320043621408837325635800483213513017939256004178523426567751920033563816724825461000365968680075660802003112829242044257330021776808009115592200225676508436685258002339458981880773200024095369033951032400245004500439970299002,
  185527129815158690422002317942064219304121253081016641923040221795871621364640392275114006665402303822932016621608734037227058370459484680362207756264747944803521073677776802493034197404591787289010331814047038434733003216347643513103707031144414894230076780301250107980910342702910599454662634917028879902495546313330287148379627887312702756806973325240172026441374344793841970253351237784286468102424852368996520808023179910334072518910221270634358527451802187498363133493924021587111065594722810203836139159646559101924390492541818870018150793243503339360179058258187753676801752827200944788921016298847759773376200151638440314850292501486973277909304470014446557989930134630132215352186748975601210606896256494674011489543734608712330112175183668195294101092919956292839128010381064617310737300091497924390621996300856345764189526293008202460653529643810076935870297954198200722607674865556185006699608631785514670062050595662484691400556785729201925885005148171714722701870043632560024593128700483417675533831051004178855801247980780033568483069381181700366021592751342797003112868347399518300021776719364019454400225666757650181223002339243252545172600024092050102001813100244964028767112071002,
  193862032520046300422090424774886966604122168677725401901040231146843321267720392368942558705029703823856719531215094037236006177859912870362292739112254548003521865620444412246034204643045111756770331878913918403751103216917354448703072031149316773893623630301291409135211888202910940066960300234028907384974898678740287365219426654431802758479181032305293026453971723267260810253443892750770188902425517342146662164023184564290736961590221302377215169666902189606910775945547021600742054869039700203921833855582937101924913997763334672018153898280409349630179236910172249453701753823380005505497016304225785314732210151666520714557994601488389679892505544014453451585769821050132247682945463082401210752807400560231011495870865957282310112201502081192688001093968226767093855010385054890621903350091512409423128103000856846027344670078008204100106068908430076986702602657655700722756291796331727006703690067972922920062061077021396809200557036073705527834005148724143317130310043643725783141529300483621957409855095004179188128522093340033573145166978682400366074408094509637003112907310180894190021776629446614311200225657006866722662002339027767722579960024088736480574242700244923629819627921002,
  202561900567596780422182308129823730704123122674215592409040240881368703713030392466533326237098703824817649700150560037245296319440816100362380895403754667903522686410986787335034212138555335450730331946025198139437603217506258359267621031154379334071475090301334026611751559902911291226272392391028935693579212405620287588381611907417002760198637945096197026466913716022425920253538999215131930302426199313754234838023189333055461501040221334874831755633702191763718688970902021614672937212967570204009338094103755401925448095602667084018157063413980881000179418863279866222901754837096135461597016309693806211926980151695046662248898601489827332809145518014460442684261896820132280443335132351601210900533356770871011502271340426523310112228103448473147301095026892202552152010389081426289915070091527014188242633700857350018339616146008205750454141474520077037832225543029700722905661044369851006707788997637356070062071595293700729200557287111636983683005149277693594511130043654906082863333600483826357995115395004179520407498937850033577803012161156300366127126191920143003112946130704642230021776538261695740500225647256118275400002338812527092310010024085428157125162200244883303401668601002,
  211642297497576080422278125553821524304124116636898135988040251014739301412380392568032828921419603825816184605694016037254941496687275360362472339964474615303523537066722681417034219899951842159360332015455913005918703218114979358800542031159607653025441120301378000812310989602911653246715350286028964852161573222740287818042994509272802761966622612004293026480209336449250600253636619082279070702426898697736862211023194219320536280500221368144229691445502193969831973845576021628909938627922000204098687826824289901925992987073235621018160289731226536120179604174292010249901755868635464430901016315253211361991030151724024641774517401491286527253662473014467532533319219340132313638479353987301211050094187763467011508745905152651710112254990407543521001096096040521892866010393144499810089270091541739492738364200857857759093882254008207411752458652090077089260403542253800723055785086639823006711905462946484810062082150534763085000557538843363638200005149832364907357770043666100893608783000484030876639421405004179852637290258870033582456599519236700366179747130629954003112984809286509800021776445814043168100225637505436622732002338597530333786810024082125119150107500244843049318087490002,
  221119432639519350422378040984749999104125152194272760478040261562838598321140392673593122732465403826853752500184658037264954867542098580362567191640224607603524418639654601586034227936356911188970332087283518510344203218744161117890046031165006963485834210301423373330576155902912026451384953801028994885235125471110288054385116552665502763784446627605949026493867822692404360253736815744429535502427615917580648705023199225838044720630221402202792978810802196226317048378007021643459406472046040204189919673635768801926548876743467364018163578337398753350179792900891914034601756918288408986158016320905409220601720151753461222460553201492767557389922507014474722395060244990132347273555435889301211201510148396296011515295313754554800112282165616400098901097175760250452735010397244388311802790091556586147417470900858369271615448980008209084055898154360077140988376042839800723206666402118978006716039506041510920062092742799792141000557791269248934654005150388156602165780043677310185186310100484235512693292298004180184817010694110033587105923690807200366232270997988851003113023346241733820021776352108419917300225627754853366259002338382777126547130024078827354183162800244802867374437408002,
  231010187161637330422482225003238357904126231039316874075040272542164254851390392783372002682875003827931834223144638037275350062273297400362665573433439154803525332217610268944034236257195085874240332161587965477171403219394467453119892031170582657164459190301470186985861681402912411172602118473028102581799053254760278297594372162348202765653455446049443026507898642976836200253839654114987445002428351406549331608023204355421115631860221437068275475352602198534262054174576021658327811667443590204283070934246517101927115972794927048018166930356275348830179985101677723380501757986349730754602016326651828049794440151783363060110151601494270720989789440014482013545949214460132381353794875944801211354801687280747011521920326379159110112309631753651722701098266140519232564010401381370564896670091571554967122703200858884578000891071008210767419504080220077193017384881608600723358307471772501006720191169036773030062103372143837368100558044389652416915005150945068019432110043688533927362969200484440265507961421004180516945777771730033591750979360832300366284697881637943003113061741885040100021776257149573265100225618004399926921002338168267150243670024075534849796826800244762757376967499002,
  241332141140096640422590855094141845404127354931963554760040283969851141440270392897533212731243803829051965075932852037286141199874330470362767612643658524903526278925420280877034244872202830503690332238451777466871103220066582933529989031176340289393961430301518485857748049502912807752165115667028105767631387759260278547862131231279502767575029213441194026522311501052743440253945200663147045702429105607897735254023209610945199916830221472758808290722202110089477727114415020673521750944582660204378179599906685201927694487081316791018170346930445007490171018083617575546201659073118595379794016332493916168435890151813736898017358001495796319472050610014489407276937488600132415884483844760101211509989448322350011528621709747030190112337391518643367301099367271067910000010405555726986087490091586646770748553400859403700435508075008212461898486895170077245348674338379600723510710778533216006724360494019349890062114038621789011800558298204929731364005151503098493675850043699772089864883400484645134435380634004180849022711907510033596391761261165600366337027869506912003113099996530642960021776160942234490300225608254107545875002337954000084648640024072247593601852800244722719132620103002,
  252103601687436410422704115917994601804128525701671872280040295863695208907050393016246663120176403830215736761012270037297342905014356610362873441012590875403527259926133078870034253791438484183630332317960130503280303220761213504599004031182285583896911000301568315321655318002913216541608378108028109048680501495150278805384866158017202769550583619648309026537116341762503890254053523449239648102429878975089609817023214995349372311680221509292907320888202110330899553935897020689047949124434720204475284365319060901928284635188357228018173829221596769830171038016485393007901660178898632196073016338433142205490460151844589567990903501497344657941698786014496904893606042430132450870963671838901211667094272271258011535400237198194160112365447631580184701010047924224786072009409767739645382900091601862381252390700859926661193454059008214167548223408690077297983491129629900723663878807281248006728547523048667900062124742288377672100558552715432628902005152062247353457010043711024642377685100484850118828224514004181181046936401060033601028264170375700366389261049811356003113138110492244230021776063491118923900225598504007285475002337739975609656770024068965573247121400244682752449027661002,
  263343632180330060422822199592818656304129745250092875214040308242178225019390393139688655398875603831424799387981719037308970325556292160362983194873898989003528276422268359316034263025292520417620332400200935175696503221479087130234164031188424437688096580301619722085377481302913637902468054676028112427679638321750279070364281654330002771581570769948050026552323356732153180254164692160838579302430671972019939744023220511637658627770221546689480923006102110577807268839461020704913261438946080204574424640738851301928886636494562224018177378410813566500171058314913537582001661303997994624633016344470995356099500151875927991388361501498916045229575849014504507716309122120132486318631335242101211826137198282105011542256688738194170112393802833652028701010160214502518666009414017692272504730091617202625665606100860453482637866691008215884424256751310077350923084402145700723817814044823828006732752298156109580062135483198173879100558807921508967103005152622513921397510043722291554546940600485055218039894879004181513017577433920033605660482913570400366441397511050118003113176084083033200021775964800926005400225588754130030148002337526193405289080024065688776419482800244642857134509654002,
  275072082628356590422945305986671830104131015553834689383040321124493407660150393268042115392726003832680863548589857037321039150661003140363097015307859681803529329657110096043034272584498121409280332485264921183453903222220954453265213031194762926113576320301672754226602217402914072206554481663028115907437229084920279343007447693397402773669480076958572026567942990190019830254278778149637317302431485073241806656023226162880388952840221584967837733275802110830318797426921020721124675890415470204675640564265035001929500714232918715018180995698869845210171078985141221316401662448729421296956016350608985640501470151907759180160779101410051079393237684013512217080319067640132522232939954730701211987139465483314011549191851084366740112422459887158422601010273607098375088009418305870263313740091632668335104702100860984187220994736008217612582296346380077404168705726559300723972518979874835006736974861344615930062146261405587674300559063823502712182005153183897514200050043733572795978595100485260431424524807004181844933764065240033610288412362206100366493437342002486003113213917615685640021775864876339330500225579004506487358002337312653151695260024062417190843631300244603032998069524002,
  287309621227012800423073643021331452204132338667330298288040334530571986064320393401496834391374603833985702463023712037333565629496564590363215048301048800303530420916040381066034282480142076382940332573245724392848103222987589474954466031201307308030148780301727461231441456102914519836231742745028119490838868570660279623526935671072902775815839173300964026583985944915223840254395854469116577102432318764197895847023231952215577295980221624147694630319002111088554452410980020737689315650405050204778973014326135701930127095553484915018184682306533353740171100033505951701901663613410297915726016356848644165832720151940090237907907701410212922045302265013520034335972327200132558619399288436401212150122514556126011556206517712358980112451421575634051401010388111232822188009422632560686246290091648260344782419000861518797484326214008219352078217883880077457721609090978400724127996103034645006741215254588302010062157076964868203800559320421753941383005153746397442669100043744868336239404300485465758336983018004182176794628229840033614912047433918000366545380631725642003113251611402363540021775763722026702700225569255167188512002337099354529158330024059150804281945500244563279849391624002,
  300077767139727980423207426987524304704133716725811693920040348481110722591070393540249718835096103835341154199831732037346566590572054750363337444911208724403531551527915319704034292723676013428500332664239976477767903223779790254045396031208064031128962370301783894033998607402914981184704492317028123180849341995130279912140957853085502778022214845442946026600463188318730380254515995913015932402433173541456732847023237882850328144590221664249184846504802111352636978866676020754614441498748800204884463622363121401930766011586917731018188439474871115440171121466444946000401664798362719858115016363191523390808570151972928360944052701410377164504139784013527960848816642900132595483576233033301212315107989322852011563301488902864370112480690703974674701010503736188712332009426998052288749600091663979494018799200862057336058714047008221102968063288560077511583050894440900724284247906769710006745473519832062140062167929930103298000559577716598845146005154310013011730070043756178144857366300485671198132878008004182508599304734090033619531383092341300366597227469551885003113289165754714550021775661342640184900225559506142489863002336886297218096030024055889604534363600244523597498838170002,
  313398924555334180423346882872128533204135151948394220670040362997600428656660393684505048789080903836749123971922234037360059461716006300363464361437460595503532722866484257162034303326927974692500332758347397217704503224598379625888646031215039737407110710301842105056999155602915456656312222185028126980514702214370271020907351018368202680290213989191219026617385958659761140254639279054626216602434049912953741909023243958062270427890221705292866229805902111622691600280688020771907454303304820204992154785712291201931417697508942788018192268465559659710171143290496563914701666003913555531275016369639197393344240152006280839374687701410543839183546122013535997999759437860132632831095327472401212482117738344947011570477571788596970112510270098563525201010620491311589192009431402635503726760091679826626252262300862599825664501905008222865308040687260077565754289940442000724441276885392145006749749698991180790062178820355219067200559835708369729260005154874743520449740043767502191322153300485876750168562075004182840346931253490033624146414346927400366648977945086138003113326580983871390021775557742816150800225549757462573399002336673480899065060024052633579438234800244483985757446276002,
  327296418069126100423492244697788100604136646641275065359040378102355509567210393834474745504498003838211586511153931037374062290720240220363595959596028106603533936351853649245034314302114344994270332855670889528710003225444205942197649031222241268791143910301902148253511857602915946666831155836028130892964398861210271051455451853258202682621484587307257026634765771400409670254765782286919216302434948398237218751023250181201019388790221747299729658813102111898846065411468020789575897541066570205102089680691064301932082392605779589018196170561199556280171165512301758771701667230394510486779016376193262141116200152040155058183894101410712978890272852013544147185217400810132670667639260260401212651173816530584011577735580401490300112540162607398199001010738386009994278009435846602455985570091695802589050646300863146289111648939008224639154524374100077620236587430349000724599085535039430006754043833950945400062189748293979498700560094397395017417005155440588262055860043778840445085539500486082413801135652004183172036648328950033628757136252771500366700632148203182003113363857400451370021775452927175334000225540009157447811002336460905252764300024049382716868177300244444444436924899002,
  341794529437396000423643755875396062604138203201049982623040393818544574152830393990378648374965403839730588524114206037388593766670439500363732406701644633303535193451996926789034325661852144225300332956316637304808803226318143832000016031229675672916523300301964079149788458202916451643783957962028134921413460638780271082881998845845102685017716709729418026652614425701336130254895585863531296502435869528719310143023256555689666861890221790291207613480202112181230695973346020807627459861263780205214312275889545601932760340340534309018200147065634308840171188138605547468101668478142192302614016382855335765106930152074558498332739601410884616828213255013552409817267278510132708998949380335601212822298486751923011585076335720130460112570371100217975201010857429755774204009440330246968690380091711908234122244700863696749299853456008226424564054772880077675031206956839900724757676353653923006758355966566257310062200713799986047200560353783999253399005156007546523957730043790192875561829900486288188388451204004183503667599363730033633363543910429400366752190169045112003113400995314556050021775346900322881400225530261256949328002336248569960037050024046137004735949500244404973349651884002,
  356918535757162530423801669569919312204139824118152488263040410170222146330150394152444801607264703841308251231765348037403673241985495450363873875854820766603536495684311744199034337419171694186350333060394206149617803227221094984366078031237350209067153130302027954889250519502916972026757452099028139069164732031390271115211215856902202687480643536894802026670944011061502460255028771940618055702436813847932096327023263085026300477060221834289182904300302112469978435157832020826069977691086050205328867345670752801933451788420573267018204199304273657350171211176258499342101669747498176240190016389627058836160490152109498737868650501411058786602626145013560787323797885790132747830826211527701212995514221472058011592500665717422260112600898468631654001010977632084388626009444853864569822240091728144417326823900864251229218676161008228221593338398470077730139414497273900724917051840962521006762686138661244470062211716926677246500560613868503103721005156575617587765620043801559452128295200486494073289117475004183835238930620290033637965632465749000366803652098018753003113437995035770510021775239666848400400225520513790742629002336036474701874930024042896430990301100244365572308670997002,
  372694749124699750423966249080054126604141511980419898890040427182361516966410394320909750935611103842946772995723760037419320755188337020364020546135154596603537844617226042298034349587529670824490333168016647080056103228153988953511762031245272354279228890302093834277652692302917508267728543439028143339611165724830271148467965755981802690012042406666501026689766914104958330255165424619597406802437781911788873550023269772785552311090221879315997562628902112765224897005957020844911437884700710205445800483882622501934156988865890144018208328624421350530171234632218244240101671038809071684347016396510094644565420152144983453045918301411235522224397875013569281148663334420132787169129970637801213170843704381649011600009405408483720112631747626245832201011099002595218985009449417752498643040091744511998686619500864809751947662095008230030299247814630077785562478407039700725077214498456187006767034392028876890062222757727328306500560874651223359933005157144800729311290043812940144125584500486700067862503208004184166749791216890033642563397109684700366855018025793024003113474856873163280021775131231326011700225510766788321742002335824619159420520024039660983616840500244326241127688966002,
  389150557828413430424137768232219265104143269476790747270040444880888775703250394496018850719400203844648432034023979037435557054431641750364172602800872435403539241871854396741034362180822553118770333279300603286195703229117783986887330031253449809613744150302161777829452405902918060831398548528028147736238172048970271182677766501503602692613735885379331026709095825517738200255305629990798773202438774288850734804023276622620177517130221925394461894918102113067108416645064020864159980416195850205565158117784687101934876198078480259018212536395607437140171258513550999952601672352426589375534016403506129482710490152181020419457392901411414858114342887013577892751837495650132827019781089156101213348309832045371011607603396898777820112662921508793663301011221550951877952009454022209712163160091761011842397318100865372340656462102008231850738821590230077841301669412856800725238166829369515006771400768430581580062233836255050723300561136132472941381005157715095218667890043824334920858166000486906171468741447004184498199333124350033647156833078126800366906288043296408003113511581135285560021775021598314400000225501020279010928002335613003013970070024036430650637895500244286979621072545002,
  406314469133636430424316511789411227304145099401138258733040463292718063725520394678026581775515803846415589229309940037452403621802552560364330237494793304203540689123706165125034375213400480192000333394366420033546803230113467876880279031261890506602103170302231847815416685902918630195536137657028152262626026790620271217866807605551102695287592863527182026728943747137986090255449476178036340102439791560598548910023283638262663466980221972547863703588202113375770101404086020883823901117123820205686987522192428501935609676912734599018216824009925132190171282827433119246201673688707609439390016410616872930821120152217617513177443801411596829107542696013586623609569693440132867388760738590801213527935715558020011615283489432468440112694423074264077501011345286882519496009458667536891612740091777644816839011100865939018604952789008233682969264253240077897358260606041200725399911338660177006775785309595853010062244952562791888100561398312560897463005158286500320169840043835743751594733400487112383468733229004184829586711162490033651745935651724100366957462241714356003113548168130170930021774910772356860100225491274291965540002335401625946976920024033205420112381100244247787603845609002,
  424216153719044120424502775875465324404147004656244739645040482445788089882380394867196880308112103848250691032493084037469882698431302120364493648456916609003542188104446993973034388700081528568220333513338257796719303231142058836778373031270602613869423630302304108311497720002919216851329102670028156922452338760530271254061966992205202698035529676634113026749323999202539360255597053384124974802440834321710442405023290823526869973730222020799977677550002113691353882821891020903911654459356430205811336833842742801936357690746868684018221192882372322250171307581152656766201675048014250227438016417844058145831510152254782711916368401411781470457724347013595475214541655800132908282111359540301213709744682210670011623050539441024980112726255303031495001011470220180149879009463354036448922500091794411794587159300866509809143356779008235527047946242950077953733527435778700725562450532988574006780188057221878700062256106703334702600561661191792410639005158859015292433300043847166605568637200487318703224151706004185160911082996930033656330700155705700367008540712486771003113584618165334990021774798757981353000225481528856172910002335190487640054240024029985280135656800244208664891686213002,
  442886491826480350424696868415284577204148988257921887876040502369099953898200395063803478309743203850156272465005251037488017310429331760364663040743837665903543740603715284006034402656166421775070333636344208715222903232204606401652082031279594543940186150302378625249009221602919821303745164355028161719494578510700271291290828258189702610085951125184740025770250227753167370255748453937357224602441903180344885234023298182309701132270222070175074955062002114014006569562396020924431856383875970205938255065983180801937120509555397960018225644451197755500171332782110955937601676430713937970527016425189442153393580152292524096186223101411968817841677653013604449076025706470132949705937194375801213893760277166449011630905410592046320112758421197985990301011596360702939184009468082012533203440091811313652423503600867084735712360863008237383032403859870078010428747702309100725725786920697277006784609052973149850062267298729297197200561924770468798921005159432639388376000043858603451978313300487525130097445886004185492171609135790033660911121959713800367059523547305525003113620931547774860021774685559700549300225471784000453235002334979587774977760024026770218839394900244169611300923735002,
  462357621188301160424899109591619172404151053339282215958040523092756321966270395268130255820806803852134960222880611037506831295683356730364838626455202509603545348470995265319034417097453684886870333763516416465133403233302192354836547031288874960231040830302455466466136733302920444071902041827028166657632669649930271329581698345012502610376155228081480025791736412205803180255903772338960572902442998758429487902023305718592809352940222120697932861983602114343877901251424020945393287176241190206067792123188424801937898407982675047018230180178251981720171358437824256180201677837179477258899016432654806143072670152330849850478255401412158907363712403013613546720044219760132991666404823677701214080006265146388011638848973838327740112790923784663945001011723718374533608009472851771037235170091828351271346982100867663821843234046008239250980339211960078067445201550099600725889923011790471006789048338481082900062278528693132150300562189048887518745005160007371855237510043870054259987686500487731663451844544004185823367452925940033665487196477616100367110410838111881003113657108583968980021774571182011885200225462039753460421002334768926033688980024023560224391447400244130626648536009002,
  482662986798636160425109832318999394704153203155166951118040544648002001484230395480471605446294203854189475885999582037526349331532602370365020624967419375303547013617548378698034432040255256925800333894991199642693003234435931680709000031298452784235689630302534701760815676402921085689447009754028171740851644227240271368963625631862302610674371841941580025813796873086155060256063105311554411002444121691955617661023313436444332171230222172393844828384802114681120603250069020966804894389426620206199998816407210801938691665417502111018234801549343095200171384555925320605101679267789122353498016440241955766747670152369768264451993001412351775560155071013622769689530347730133034169743706351901214268506632125052011646882107467158420112823766111379138601011852303184368497009477663619603954960091845525536584615300868247091157944276008241130949620161830078124784171460982600726054861317913474006793505955343637670062289796647126709200562454027342167547005160583211934599430043881518998726601600487938302651359966004186154497780549920033670058919167346300367161202677093971003113693149579876420021774455629397606700225452296143682940002334558502098297320024020355284995707400244091710752146421002,
  503837392597359480425329382735446137904155441086735962837040567067265963263340395701132809542024703856322639235933699037546596963357274980365209263174850775503548738018404708078034447501412574404100334030909178758438603235606973544476193031308337202906880930302616402945011762202921746704946175059028176973244363684040271409466418458763302610980812751492529025836446279935129880256226551848626446002445272631278943225023321340020662416390222225288630486527002115025890442379547020988675795814740330206334926878242874501939500566068833063018239510074597345610171411144165084468901680722926649340475016447952721440251530152409287734136111101412547459403885917013632119544490018150133077222246723524801214459285587036260011655005697149857690112856951249354354501011982125187982102009482517867632953620091862837337602384900868834567369274930008243022998280268150078182446942247271400726220604352332178006797981945124937730062301102643402017500562719706122486797005161160158862405200043892997637291229800488145047060791916004186485561761022110033674626285530717800367211899156684385003113729054840936880021774338906324822400225442553199444704002334348315651083960024017155388891977000244052863430021107002,
  525917055138063200425558120712605244304157770646225456163040590384204861149220395930430430495694603858537371685937037037567600634107179820365404775738716594903550523714416258814034463498313139654630334171415406943120203236816502299703821031318537676240681620302700643900439206602922427682283709542028182359014306915220271451120664089647402611295695086120241025859699659387569330256394213265048543702446452241426018920023329433568252328380222279408645953243702115378346283612638020101101528250154300196472628978470769101940325399042579268018244307288824668930171438210414324575801682202981429134229016455788958648280100152449416763141152201412745996308916381013641597862165215400133120830270726172101214652367563488702011663220635991545300112890482292853429101012113194507329955009487414826286974290091880287568116076800869426274280939299008244927184518727220078240434801044824000726387154629912558006802476349354893100062312446733912849700562986085514364886005161738211868980830043904490144744494900488351896045731168004186816558566185470033679189291113256600367262500369557662003113764824672070040021774221017245551000225432810948905909002334138366374503520024013960524355835600244014084501066114002,
  548939659313905510425796420384974670804160195481879369835040614633748100676680396168692714542209803860836699826744923037589387714800311040365607405343945769403552372814373930117034480048907587991440334316659504469544403238065738524341285031329063945068330900302787500635753139602923129201071281350028187902478427011000271493957748125281502611619241448251060025883572403427902360256566193248652772802447661202407022853023337721425452241620222334780794299952302115738650147747434020103383282182652100196613158739796113601941166458419533824018249194751889203990171465762665349899001683708348501340289016463752548252597710152490163963884214301412947424135007233013651206237198558860133165000237086536601214847777221491741011671527824581150980112924362359313782301012245521331100077009492354808498417780091897877126102129000870022235787695730008246843566700312570078298749037306101800726554514667099993006806989209528821510062323828970447238000563253165799840016005162317370179054680043915996490116478800488558848972563426004187147487370707860033683747931504026900367313006408627864003113800459377675480021774101966596771500225423069420063889002333928653951187440024010770679698505400243975373784824558002,
  572944416217836850426044670698916628904162719383060615529040639852144510057340396416260009566459603863223759091950912037611986536022101370365817402964220672503554287497190079291034497171727268101460334466795797196956203239355940086011397031339926039061090070302877051345253284902923851857067932392028193608070078280290271538009874376101102611951680044658308025908080277826324040256742597912888134302448900209534762916023346208024384440970222391432536213316902116106967270078540020105713806061321760196756570753855303601942024043334428345018254174049084848330171493809033713614201685239428648983546016471845396803568200152531538058825655701413151781192327495013660946281799163410133209738632253298801215045539449190921011679928171041649870112958594589479390401012379115915028699009497338128975842790091915606913808420300870622475875460019008248772203355309110078357390942793105300726722686981898654006811520567107068210062335249404626102000563520947257102999005162897633011777260043927516642404841200488765905208472689004187478347352078370033688302202335457500367363417367046008003113835959261632140021773981758800471900225413328640753931002333719178063946600024007585843266723400243936731101473891002,
  597972123216533030426303275982172004704165346285548512790040666077010668648690396673485197362150103865701797546858150037635426420457022630366035028135466214803556270014148635453034514885902350518990334621983459047882403240688403237358463031351134284953672000302969376469137170702924596262610656647028199480342015208560271583310085205351102612293244820756691025933239430759269720256923535850579763902450169973750071026023354897892852828370222449391900849964702116483466160082611020108094082830264550196902920597464547401942898458056138792018259246791515928190171522357759946861101686796628474116434016480069436855052840152573547881718025101413359106246155087013670819625909831580133255052008310635801215245679364614172011688422591080555180112993182147534297301012513988582216933009502365104210486260091933477837765096600871227018621418925008250713153179450870078416361811570447500726891674093851119006816070463514637030062346708087902908100563789430160500666005163478999580742530043939050570575225000488973064121445353004187809137690604040033692852099283171000367413733338197853003113871324627298090021773860398263698400225403588638650165002333509938395773960024004406003442602400243898156271823044002,
  624065226320113160426572656534618139004168080277028979940040693347380949766700396940734140829301503868274179804813995037659737716485102900366260549238042188603558322691224768417034533211180479370800334782386658629721103242064463742263789031362699314991926810303064558755341654102925363047055936991028205523969465014120271629892282352977102612644175597948262025959066401617917260257109118188811685602451471221953700980023363795656289020190222508687496888310202116868318662133162020110525114017565650197052264849118838401943790012069052831018264414616483025860171551417211314375901688380360474308913016488426627282691130152616202378867185401413569438521618617013680827917375535150133300946983541042001215448222317427571011697012008040630050113028128221236522801012650149723447952009507436052482770660091951490808795321100871835888194141314008252666475033850480078475662939998224000727061478524017589006820638940140811050062358205071563291500564058614780538694005164061469094007220043950598243561674300489180325080273680004188139857569406150033697397618065810200367463954415701273003113906555777510430021773737889378604700225393849441266349002333300934629846830024001231148643505400243859649117309697002,
  651267884932773360426853249241038427004170925602784275084040721703759336711780397218386146609732703870944391075171918037684951832876998390366494243787905924103560447931476183058034552167945983072690334948174710116880803243485498033763186031374632075610645220303162683323012843102926152857232507616028211743753275527430271677791248251083802613004718214085714025985578130008616150257299458644955506702452804697344854864023372906039735537010222569348523780994402117261700017261780020113007920062791620197204661105745099001944699020155615796018269679187874041100171580995883592310201689991043120033626016496918953605603140152659510610405799101413782817708481196013690972822113230590133347430242992016901215653193890701563011705697352950846410113063436022052481701012787609797504897009512551293868824900091969646742026041300872449108853688757008254632227944930450078535295626724937000727232102794955267006825226038338776890062369740406724708600564328501383884820005164645040754111310043962159630267033000489387687454559007004188470506174416230033701938754444867800367514080693403958003113941653014584650021773614236522498200225384111075956697002333092166449530100023998061267321920100243821209459997498002,
  679626039072465550427145508206698125004173886671589307173040751188173072750950397506834443675200603873716041347148675037711101274622238860366736398737019616003562648217508165138034571777239660050100335119522228512112103244952924404519856031386943836347463630303263837727645242302926966357905612569028218144623140144640271727042667841941002613375124667119906025101279196494916570247494673583867408902454171159766460550023382233869866738230222631404783211193302117663788925982270020115543540649823050197360167999712915101945625802480070191018275042196560545050171611102402868460201691629100932954905016505548428311543330152703481751579281801413999283965966454013701256024283003650133394508539046636901215860619902687426011714479564577579570113099108785291869101012926379331489497009517711150247006610091987946556898718700873066704951725823008256610471104351000078595261172680376100727403549430697851006829831799425256880062381314144336089300564599090233372013005165229713758098280043973734699563368900489595150614715899004188801082694372950033706475504224514900367564112265381020003113976616640314600021773489444057890800225374373569916762002332883633538378700023994896347965313400243782837122573373002,
  709187479150921690427449905416548892104176968061821777366040781844228207834260397806486678399671503876592869713978898037738219679926317030366987310783284928603564926114014564800034592060779156003200335296609289408821203246468204230728482031399646198999002770303368112027931978602927804232253038732028224731640901643530271777683150909756102613755653261999532025104072567426496790247694882076276362602455571386057325830023391784077048169570222694886690756281602118074767612194370020118133035045103600197518845216106493801946570684673403654018280505360799487400171641745527365151701693294964565129221016514317091185539700152748125094044293201414218877927626903013711679226460547430133442188691997967401216070526408603705011723359589476044600113135149770243000401013066468921141403009522915945304424920092006391177180041600873688700931628380008258601263868935180078655560881068450300727575820956734759006834456264680131340062392926335177479200564870381588001628005165815487297535070043985323420292358200489802713931975346004189131586320817810033711007863251426600367614049225932530003114011446955972100021773363516332547600225364636950184198002332675335580139560023991736379096019700243744531928344724002,
  740001918408593120427766931418913113304180174527793656316040813717167106891270398117765426664180303879578748841907917037766341858413374030367247286690295669503567284270396966301034613040979949695020335479621593379413503248032843230348469031412751107025529790303475598854368927702928667182353206497028231510003936693320271829750254937621602614146568760892372025106939745418910720247900205958386534402457006170411296591023401561697434997480222759825287762241502118494821888183952020120777482441383750197680753510261428501947533997919522125018286070426640329580171672934149285031501694989070879127933016523227009642046560152793450047179892801414441640706255147013722244149810988350133490477590627448001216282939702433344011732338382041968310113171562260308644301013207889231158141009528166004543471220092024981530972623000874315121328592313008260604665760593000078716196057360010300727748919899990575006839099475346072130062404577029859703800565142375702946747005166402360558533100043996925761265710900490010376778388180004189462016248092070033715535827414621000367663891669581333003114046144262306830021773236457679533100225354901243639601002332467272258754960023988581349271105200243706293701236791002,
  772121068102486830428097096034529109304183511006311762333040846853927986727200398441108723560687703882677689588706011037795503830572377670367516643617208305203569725423464360344034634740976964729020335668750635118304903249648392756590241031426270855210598710303586393479656755002929555929685610443028238485048622936220271883282508501446202614548142536799861025109882593917059380248110769892718147902458476324743552240023411571875110240410222826252253432504102118924141220737989020123477982307046030197845954725570060401948516079042662969018291739168337659000171704677296680028901696711863029089924016532280279060641780152839466139411434601414667613898838096013732952534264066290133539382192787117401216497886318730687011741416904563507180113208349563142316001013350650995515843009533461655288350160092043718550725668800874945990769740336008262620736466242910078777168009285610700727922848788804365006843761472628170600062416266278824022200565415072829555574005166990332721767620044008541691265561000490218138526828944004189792371673332500033720059392645278700367713639691070514003114080708859545950021773108272417259900225345166477007290002332259443258364480023985431247082233500243668122265789894002,
  805598715548293670428440929091868073704186982623475457906040881303206550651350398776970611278566803885893845776526291037825742868485742500367795709459037825303572252400215690954034657184646825195500335864193877470903903251316451127594787031440218099582243280303700593890945493102930471215643904303028245662253890534490271938319435212628802614960652730635622025112903021189490770248326701430210137202459982679064165469023421819864263462720222894199917134552602119362918798390103020126235654741085530198014511811559009401949517270596064613018297513388769353760171736984135343708201698463790542714130016541479023125301140152886183019547317001414896839591554367013743806138690665330133588909525985810301216715393034439030011750596127273394270113245515010785013901013494765017790462009538803226691610940092062603173245621900875581333974227819008264649535837729440078838478046828251200728097610152908901006848442297693567150062427994132341780300565688473215354568005167579402962498470044020171179044876200490425998550998886004190122651796467810033724578554916579800367763293385361169003114115141047393990021772978964849539600225335432676856201002332051848263307800023982286061155549500243630017447156819002,
  840490805121990900428798981189666922204190594701719771470040917115519792431950399125821705777731803889231519124093099037857097537880681210368084823197697144003574868120707732499034680396630773673070336066154930484627603253038664993282648031454605867602534750303818300863968070902931413802061938236028253047244860165130271994901578221893902615384384411844017025116002981352131350248548131073610065702461526081859067562023432311031410692700222963701270928234002119811351599816752020129051640833842270198186488842242983201950537920951909973018303394919860374320171769863970727352601610024530940420381015550825394167293380152933610458128731601415129360364815737013754806741080734040133639066687979359501216935486870718686011759877028401341630113283061959802484501013640242171479964009544191049740691160092081636339706808400876221175753348963008266691123891742220078900127482216122200728273206523410167006853141991671084610062439760640514088800565962577104052104005168169570450590130044031814193327854200490633956225429503004190452855820214980033729093310243531600367812852847629994003114149441125032530021772848539265626700225325699869600579002331844486958126840023979145780151544700243591979071100066002,
  876855522329631330429171824487651955504194352767112510677040954343272043289860399488149782869636603892695164343343755037889607741544582550368384335264105565603577575601010802824034704402358270437300336274843735620052203254816730740359738031469447568632387850303939618039109423802932384471753055427028260645796569426730272053070525296520502615819629742631911025119184475414121650248775192342175526802463107400478550427023443050857656242020223034789982319199302120269640463400121020131927103033557040198361951034758165701951578384392557983018309385623012230910171803326249879927601610205688213816709015560321573511707990152981758348792415101415365219298352097013765956138722562940133689860847364690901217158195094785215011769260594226674690113320993791422912501013787093400326942009549625457264454340092100818995662034900876865541010640478008268745560809729890078962117629915246900728449640432766549006857860595650862500062451565853271482400566237384735541734005168760834350532190044043470702810328900490842010925486075004190782982950075000033733603654682800900367862318173267083003114183609391120010021772716999940266900225315968081500852002331637359027568550023976010392764931700243554006963989249002,
  914753381058092800429560053526463729504198262556914239647040993040823338261210399864460384348842203896289394405820530037923314764147136410368694607911702918203580377956254904899034729228071293356550336490476755265264703256652395936503216031484757004678747310304064651999459654502933384029062968385028268463837789722620272112868934483796302616266688145891579025122449552346214370249008021837712867902464727521533448406023454044940997192920223107500407241355602120737990157977311020134863225518846710198540964768279606901952639021203081659018315487389538207480171837380563412262001610389897789448778015569969771827660980153030636709646619301415604459976340927013777256148383455190133741299244177955701217383545221758198011778747819131206700113359313911675085001013935329718641980009555106783939731770092120152091053173400877514454741985451008270812906937812940079024449806622165400728626914414768168006862598150683987690062463409820373586200566512896345905840005169353193821459630044055140676160165700491050162027370911004191113032394329910033738109584332550500367911689457873601003114217646143791720021772584351133747700225306237338664401002331430464156586970023972879887724521000243516100952798439002,
  954247314123474740429964286077827876604110233002741028533039103326456018068070381025527744483785403710001898598426774036958261318513114640369016015601714987603583278403768954337034754900849358436200336713277167699569903258547460814772133031500548381431429440304193512350900495402934413300436539780028276507454935693510272174340560373647102616725866476892842025125800310172190350249246759311979186402466387351299140487023465298998671292320223181867603272141502121216609454793945020137861214577181710198723597603226105601953720197765128489018321702141104409190171872036647485703501610577207253417391015579772229482214290153080255684660317501415847126492581173013788708606491789860133793389190496669601217611565016520493011788339705652361570113398025751527032301014084962211627706009560635366297871210092139636580221731600878167942035715677008272893222786693960079087125331256536500728805031004516126006867354697782130570062475292591408795500566789112167419111005169946648017172960044066824082017650400491258408908126572004191443003364037780033742611095332258400367960966797259324003114251551680659200021772450597091942300225296507667046334002331223802030345820023969754253793093800243478260865103528002,
  995402767238003880421038516402605271104010656136202424645039107507296878611660381066114394002869803710388888507505763036994491593391051710369348945400526195303586280266315828121034781448635281525020336943475067656751903260503779799314423031516836319597065700304326311804275532502935473134998799870028284782896069330880272237530280973645202617197479198824064025129238897083757830249491547735473821502468087816127516908023476818869549013050223257927343084424102121705711200681219020140922298989455500198909918300756892001954822286652120877018328031830176699750171907304385825489801610767664871619431015589731216898033970153130625545065802801416093263455712176013800315369320483730133846138071045884501217842282495588080011798037264536537170113437132767025145701014236002035703487009566211542731285540092159273421919389000878826028072713520008274986569031565790079150145524953725900728983992738401930006872130277917182470062487214215793948800567066032428552016005170541196086158510044078520888995899400491466750945639198004191772895073029810033747108183862566500368010150287440693003114285326298810600021772315742046358700225286779092450334002331017372334220930023966633479767278600243440486529079635002,
  103828779652058550411082335428197195604011096297972279824039111852671088976680381108262255702694403710790421280724311036103205130276444830359693797389525644903589386975426045085034808900261702255170337181307672641998103262523263073469431031533635866537792650304463166259695891202936564405150541090028293296575000949330272302484125209958902617681848562263658025132767512579412330249742533367646261702469829862867056900023488610516570554150223335716128138989402122205512392475430020144047730420735110199099996842563813601955945666725813548018334478440473597560171943193811759133501610961319598531356015599849034914824960153181756690774781001416342915994477536013812078313171866790133899553343808397801218075725928990298011807841514792705310113476638439433756501014388460418830810009571835653500001410092179063579318520600879488738126512478008277093006512018820079213511711057365900729163802154086596006876924932020889950062499174742774009000567343657353974743005171136837171608900044090231065681243900491675187518641904004192102706737905830033751600846145099600368059240024638222003114318970294810110021772179790214187300225277051640529347002330811174753801870023963517554477422700243402777773498484002,
  108297316968060460411127954973048987104011554154372191947039116368870220410150381152029638752621603711207027144421711036107098773675349850351005098508780366003492602074832970699034837285478391878110337427019535160785603264607878191394295031550962508222519570304604194893034356902937688007178837893028302055075489239810272369249301068025702618179304788665145025136388408627740860249999865828547959302471614459291167706023500680029228569380223415271202621598002122716234252699500020147238783817284560199293904450963412801957090723234224537018341043987425208330171979715110280065201611158221086093387015610128015154575750153233659651808026401416596129763034666013823999334563966790133953642540639036901218311923842160761011817753483746266650113516546275375165801014542348660839287009577508040738217710092199008020022696500880156097563397044008279212596231943530079277225215111875400729344461790480049006881738700984494100062511174221421740800567621987164560485005171733570411443100044101954580633627100491883718006717757004192432437578030800033756089078442307100368108236105274538003114352483964697950021772042745798346400225267325336786457002330605208974895440023960406466787472200243365134427725820002,
  112953247100912380411175447021292514104012030397050499880039121062419361629250381197476964456401803711639255058413673036111134981415677310351042093588808627803495929224012515468034866634980367210190337680862761021896103266759651734367861031568832181498775830304749520244661900302938844861882846823028311065155542674220272437874224387007102618690186257940384025140103890855663640241026369817195555602373442594534934431023513033626097416520223496630567628615302123238102306526008020150496757809951050199491713609292745001958257847910959087018347730518638258170172016878620136849001611358419692695576015620570520390649570153286345089738767001416852950946310032013836080350418230180134008413267883047201218550905017838976011827774207093136640113556859806970192101014697678133753332009583229048460857470092219107716077148400880828131842501784008281345399359434040079341287364854993100729525974187720393006886571625658370080062523212700637405800567901022077389517005172331394938327150044113691402387001800492092341790303263004192762086815530490033760572877057293300368157138625971952003114385867603990200021771904612987529000225257600206575588002330399474683526760023957300205594849900243327556321718842002,
  117804221031640040411224886354539204604012525743916363843039125940085521798150381244666840363393703712087673356546615036115318813668379020351080409150630707703499372201830384538034896980436833545170337943097233881299303268980671012958968031587261286693363310304899268310482183902940035915215251204028320333751824582460272508408548322424702619214839700227251025143916319762116110241053418695999416302375315279540437327023525677657409738810223579832995605363602123771346460041953020153822975124009190199693498082613114601959447439075941768018354540114367297060172054694835948176101611561966492266435015631178944920739520153339823799149817801417113426265400368013848323298248657960134063873206998497201218792698497982268011837904728954081140113597582591979114001014854460282119457009588999022570125960092239363643979217400881504866515908609008283491477226685460079405699490210162500729708341887153032006891423746851663340062535290229148434400568180762305752743005172930309879693750044125441499449696800492301058250691145004193091653675287580033765052238333654500368205947683550256003114419121507678790021771765395956253300225247876275102315002330193971565942370023954198759830329000243290043286023663002,
  122858193595962390411276350657450011904013040940107233617039131008886326296480381293664136895426803712552870408419061036119655504493095840351120090844522714803410293491030002186033928354520980023490338213990846198154203271273085816275617031606266700550240810305053568635320851202941262138939723173028329867984164283500272580903193491732602619753620391930787025147828111957688690241081149233928968702377233547510793537023538618607681218150223664918045041397602124316201079835593020157218782995560510199899332938726371101960659901737578420018361474887992165160172093174410344044701611768913283465768015641955714943761740153394106709104721601417377602983020673013860730136352411190134120030115182958101219037333585688989011848146101929303660113638718213943161601015012706623334337009594818310862075580092259776784688800500882186327228744689008285650891329894260079470462923279057200729891567431310110006896295105331936680062547406855509135600568461208059155578005173530314357763480044137204840304842200492509866770033877004193421137384938000033769527158655309800368254663375024623003114452245970231290021771625098864904000225238153567424624002329988699308611800023951102118457913000243252595151772717002,
  128123435210962270411329920627169568904013576758990858285039136276099015130000381344536066571644703713035455302943613036124150467615478520351161185847252486403410662137845447034033960790940651473850338493819736777623203273639110209535203031625865789514211850305212554408727263402942524531304780917028339675160176666690272655410378817602702620306892356125798025151841741430735770241109577811867886002379198454373078942023551863098384300140223751926075426761302124872905073925093020160685553594573950191010929456950740301861895647696361528018368536986501765030172132328156133244201611979312598981832015652903288940668570153449204884632813801417645528908998605013873302844001836560134176891826004189401219284839847131807011858499387153264540113680270282326409701015172428747973353009600687263033164060092280348123638740700882872539719277998008287823703329151950079535578998333937300730075653363889599006901185741824807090062559562628100382400568742359543321819005174131407489564310044148981393410728300492718766731346490004193750537174866460033773997634446334300368303285797603327003114485241285590680021771483725859782800225228432108453661002329783657598230330023948010270474709700243215211750682256002,
  133608544041085690411385680086761725004014134003203032605039141749269754183930381397352265916573003713536058554446717036128809302389810460351203742911379120903411043576633547647033994324469921569260338782868535081462103276081024381239803031646076423369300330305376362563248559202943824117734432863028349762779992729380272731983653084426502620875028567414580025155959740840497160241138721184850770702381211079250298235023565417890671786070223840898262473745902125441701974050967020164224684454677750191032346071255755401863155095649941568018375728590984239820172172167048497576301612193217714934781015664024158059260150153505129528228481901417917252405816036013886043421637967910134234466250035043801219535247113502160011868965654349750770113722242432658188101015333638320119912009606606230686820590092301078650745209300883563529819012533008290009975048338530079601049051810031400730260602229734755006906095697013590610062571757595129309900569024216960197511005174733588386952710044160771127201207200492927757518509926004194079852278202740033778463662170804400368351815048685628003114518107747175500021771341281073152100225218711922954478002329578846121720490023944923204910822500243177892915049830002,
  139322458619418470411443716102788091204014713505722312836039147436223269826530381452184880139086103714055332832022069036133637799952650250351247812416087724403411438236910324613033102899098159265890329081430612490524703278601176541261520031666916989240822230305545133875236527602945161951536005018028360138541103576330272810677927223520702621458411161331887025160184702837768090241168596490154838602383272524942563979023579289888151121830223931876613608343102126022840019352635020167837598909789870191054191047318324701864438671299679742018383051917123618140172212702227212983201612410682660386596015675320846503003530153561891981364625501418192822394197884013898953891065487050134292761375492521401219788585482965293011879545981887193780113764638326675909001015496347077695299009612575567340010120092321969360418056800884259323452782528008292209768475013590079666874422297864500730446416574813081006911025011538945160062583991804629013300569306780507954888005175336856156632900044172574010086068900493136838516273690004194409081930817500033782925238332622200368400251225859436003114550845647879550021771197768623283500225208993035546842002329374264566235160023941840910829209900243140638477751750002,
  145274470940760240411504119107176200404015316130982976569039153345072817719820381509108650672833903714593953712876729036138641949573393770351293446419605388703411846562127035967033106482748064838480329389808340708884403281201984871181127031688406405970413080305719013068249565102946539114625557450028370810343320467520272891549507342937502622057431648392500025164519281413667300241199221255556528802385383918417652913023593486139710270550224024903983735828502126616572241450541020171525746537691930191076472434670427501865746807458704032018390509215703012070172253944998897996101612631762226959371015686795911923912380153619503726020525601418472288358748924013912036295649162560134351785268881076501220044885322626326011890241456834232670113807461652468412701015660566832789278009618595628429804160092343021251571165900884959946638845898008294423145760306340079733056450535630800730633098946195797006915973725998520380062596265304458258900569590050380996388005175941209900178250044184390010451430300493346009110259226004194738225371318270033787382359475360200368448594426899403003114583455280071900021771053192614503400225199275470705929002329169912619158500023938763377325585300243103448272240642002,
  151474240043603000411566983023528946104015942776027544607039159484230497054380381568201005671570803715152620460431966036143827945207832080351340698713245793303412269010106345501033110187213868593450329708313357504402703283885939528258380031710564138873530180305898148919113560802947956718271307763028381786293853567010272974656128518291902622672491132879511025168966193277076390241230613407756250702387546411311113825023608013842396080650224120024091285119702127223156550956266020175290603610648440191099198424109616301867079944161484188018398102773114433230172295906839289660901612856511978562217015698451945819507540153677976386224120801418755700353638172013925292700511767450134411546075640057501220304177270506847011901053175015518180113850716124619741901015826309471991266009624666771319947940092364235327632735400885665425488976119008296650169218800820079799596479401411200730820651892036986006920941880946595140062608578142301185000569874026769958621005176546648714051090044196219096660115300493555268686962777004195067281841045020033791835022182087700368496844749764540003114615936935596860021770907557137236400225189559252763064002328965789968109140023935690593528284900243066322132542911002,
  157931806098704570411632405398032006004016594371700224748039165862417921770900381629542153555656603715732056827962894036149202192260952750351389624877131057103412706053491637972033114016432935539850321003726683998482203186655604704441217031733410214889106730306082694366706604302949415903855484147028393074712512064350273060056989360967202623304000536471106025173528219261309740241262791280974397102389761180436095147023622880344346019400224217281534536221402127842855825431769020179133673553169630191122377349997122101868438528774947718018405834911875315270172338599395547365101613084988261228503015710291573933906140153737321729608882201419043109008332032013938725192733490980134472052020795456801220566492237532836011911982241067772830113894405484353409501015993586956722117009630789355307433520092385612596555583100886375786208554331008298890901328422400079866495853905493000731009077961552837006925929516893734430062620930365667017100570158709861716556005177153171689623200044208061237052046900493764616633758345004195396250584066850033796283223075222000368545002292596299003114648290905773890021770760866268056300225179844405906569002328761896300941580023932622548598149700243029259893256330002,
  164657605022580960411700487535121412304017271883882684248039172488677260717990381693215179709094103716333011888585681036154771314565421750351440282337640961703413158180209862151033117974466483453620321037699978561437003189513620741861410031756965238131319890306272806623534247002950917843655043128028404684137028428980273147812787380767602623952380826807173025178208205760606020241295773625721931702392029428303071584023638093147774214470224316721808235533402128475937998820201020183056487407020980191146017692590264301869823016111153790018413707991151809990172382034488584727401613317248213063917015722317456663060090153797551668985375501419334565533375557013952335881552842010134533311409615838701220831861409532878011923029768496081340113938533499677084401016162411323566486009636963741629065750092407154070827384100887091055096658632008301145404730317600079933755921182505300731198379705000752006930936674306427910062633322021889767600570444099839387346005177760777913195480044219916399944600200493974052338900466004195725130847176780033800726958816351800368593067153716178003114680517481397390021770613124069725000225170130954182326002328558231305748420023929559231728414800242992261389547530002,
  171662483634890230411771334638079057304017976314773604793039179372382659088520381759306146429706203716956260892426892036160542161582385930351492730426641164803413625893948293925033122065503336802130321072785330118140503192462706306302641031781250405853703320306468647290163849802952463741641698889028416623328509630930273237985755160356502624618063251099917025183009066197041160241329579617748901202394352383649651692023653659912012754030224418391320503779002129122676152372139020187060604303593740191170128080409687001871233868541548323018421724407288954170172426224115430038401613553349774307200015734532289464213510153858678263927661601419630121726223371013966126898569074950134595332628272627301221100316249248116011934196879730456350113983103965527826601016332794684606077009643190293468045770092428860767480930200887811258546154868008303413742228738130071000137803048374200631388559673658811006935963393606747510062645753158127969100570730196882334785005178369466466019370044231784553633007400494183575191527334004196053921879888470033805166226106083500368641039431623935003114712616952737070021770464334591246100225160418921494669002328354794670862320023926500632144579900242955326457149584002,
  178957715379314520411845055954729333004018708704213519392039186523252053847670381827904196237966403717602606151831889036166521815831403180351547030442543260903414109714645620456033126293863790088870321109017889993172103195505660620153264031806287524835971750306670382472587305302954054834301713179028428901277018158050273330639697358885502625301489574891374025187933782518454840241364228867174182802396731301980642721023669588456609147600224522337410041104002129783348607088337020191147611943727870191194717292641824801872671556112815714018429886594347762230172471180451615348201613793351697503734015746938803269567500153920713722374563701419929829977119376013980100397946119690134658124144504613801221371888498352574011945484706182621980114028120703917709301016504749227753171009649469375960538960092450733708104321000888536423043784356008305695976790916170071006936353316923200631579620419804838006941009715171992830062658223821364382200571017001166173428005178979236424316440044243665666390728200494393184581663620004196382622934431670033809601021683878800368688919224995267003114744589609537370021770314501867901700225150708331607059002328151586084858350023923446739104303300242918454932359573002,
  186555016628266420411921764928416346404019470131056483538039193951359396307120381899101658653629003718272877955498603036172717600556539280351603245713251357303414610178997760015033130664003583687140321146433880708943603198645365756407564031832099028204304760306878182902583934402955692391475914944028441527207285796580273425840028563044802626003112326066626025192985406728019680241399741427799962402399167466118564046023685886764480963600224628608363634361902130458239017703671020195319127085107180191219794261577103601874136556664350327018438197024649345290172516915853594661301614037313557793741015759539764904229840153983670402245997801420233743275026163013994258556618033600134721694508286779401221646610179484734011956894388303067020114073587564079936601016678287217084980009655801356202252350092472773918851153800889266575170251500008307992171546942600071013771378269993900631771564496695657006946075679334344940062670734058405723400571304512862772724005179590086859298890044255559706469813400494602879900223299004196711233265748100033814031342327891100368736706632679737003114776435741017930021770163629921306400225140999208142750002327948605236555310023920397541897274000242881646652036171002,
  194466563592434520412001579354447030104020261714590182189039201667147295402650381972994160552521603718967935512447917036179137087635858660351661441661051170403415127840978841759033135180517995301440321185070627399188403110188478899530837030858707992696006550307092224061156463102957377717220420979028454510584563153890273523653812003685902626723395044230742025198167062446075280241436137806614430502310166218676479392022702562985128588800224737253433971419302131147636468235376020199576796037329070191245368075084375801875629355947367286018446658209326131550172563442861191459301614285295763316006015772337977508467530154047560813074423801420541915213604632013100860357449600100124786052352503489101221924513598290155011968427075638332310114119508422615428901016853420993178549009662186603255012780092494982430450682800890001741600310713008310302389789639220071020643013462982200631964394458546273006951161326380518030062683283915882379900571592732140261288005180202016837189870044267466642101299100494812660539012278004197039752131487110033818457184854802800368784401753698874003114808155635873260021770011722759444800225131291574585615002327745851815018360023917353029845100500242844901453597213002,
  202705009856919310412084621542191845504021084616006127976039209681440095677860382049680740219451303719688667926770247036185788105741756800351721685869499371903415663272377782347033139848146050285430321224966590107134103110522698524526850030886138156379756550307312686305114865302959112150688544346028467861120607985940273624149799156931102627462812535561162025203481946504867480241473438973486245802310421680307154344022719625437907117150224848322857767435502131851835569119217020203922295164762940191271447979122044701877150447745672582018455272698880266450172610774200075924101614537359565728143015785336280964301180154112397617651610001420854399997243569013102313767467685480124851206393625971401222205631345475193011980083926888558080114165887183639874401017030162973446293009668625488153343070092517360278217943900890741949102851789008312626694974432460071027551394659798400632158112860509184006956266696551411960062695873440248151400571881659163031326005180815025419243850044279386441495558500495022525890731558004197368178792001760033822878546119670400368832004687243873003114839749582272920021769858784376721800225121585454280795002327543325509560490023914313192301199100242808219175017349002,
  211283504566476540412171018483041283804021940039921660590039218005457404424300382129263965216780603720435995204116370036192678748759800540351784048152372522003416217063350908201033144671774854129980321266161396992236203110867509952974870030914413936842943760307539754996884727002960897067034386113028481588779815459090273727398470248746602628221851133249238025208933330576851530241511666371054436002310683268322485262022737082615358393730224961867874208283702132571136555959002020208357331397305620191298043380286386801878700333998113959018464043083749282810172658922784272141401614793567070844652015798537552326488740154178193633690723701421171252447140120013103786310365316620124917165432394225201222489996298871770011991866109965273770114212727778931223401017208525652472119009675118383911041070092539908502063873100891487224540984706008314965150719221660071034496657832067400632352722258653489006961391830041768240062708502677779972000572171294091742967005181429111661766680044291319072842692700495232475348979546004197696512510344130033827295423015758400368879515532673744003114871217867861460021769704818754005300225111880870435466002327341026009744590023911278018650666400242771599654825618002,
  220215711283154150412260902024423030804022829235955513452039226650828082888450382211850054191957903721210869290929662036199817384473964050351848600624736584203416789822991084336033149656444050521690321308695878469946203111223236954180836030943560449857811630307773620637618059402962733878338616716028495703785493525900273833472075682531002629001008963645671025214524562837210990241550841924817364502310951122503880497022754943186604207230225077940743716066302133305845389912301020212883642749152100191325163848397587301880279524922733863018472971994879118040172707901718695612301615053981249393957015811944706257923240154244961835503979201421492528007431142013105278213152487990124983938354503255801222777641625513426011100377480204944120104260034168077674901017388521602348187009681665665527761130092562628146505380600892237594872123603008317317820804248170071041478939158336100632548225209944253006966536766999826580062721171674577645000572461637083328525005182044274616136550044303264504312892400495442508308255306004198024752552261470033831707812474386500368926934389513155003114902560779758470021769549829858672500225102177846119473002327138953005385380023908247498310175900242735042732103101002,
  229515827540423890412354409050091604804023753500358771653039235629604716935200382297549002751059903722014275147446868036207212663526381150351915417776199776503417382179913823269033154807350408462440321352612102309613803111590212826809125030973603528538454540308014479003686812402964624034556964870028510216626286675930273942444678409583402629800796218228058025220259069661277720241590988053424551002311225385656116328022773216000801700680225196594767042029702134056273859738672020217502998845686110191352819119123933201881888539142642492018482062104304565250172757724301721359601615318665947895128015825560695469478870154312715355695797801421818282751375581013106789705221251450125051534131293710301223068600783722259011101581118964973530104307810338626083001017570163473012141009688267709995587900092585520260675390400892993087148068799008319684769171958490071048498375023265000632744624272221500006971701547526977470062733880476563576900572752688290996989005182660513328823180044315222704056796100495652624163960630004198352898186191560033836115711464761000368974261357450410003114933778604558380021769393821644651300225092476404266137002326937106186551280023905221620727857000242698548246480554002,
  239198605118766140412451681666909630504024714177703107396039244954278583065750382386474713529595303722847231855527181036214873528659985360351984576546413414803417994782860862077033160129852542044170321397953409716362503111968780668405520030100456974300103260298262531286641236202966569024491945999028525138062751409260274054392197262888102630621735431511749025226140357357544530241632127679175213102311506203669063366022791910090662064390225317884304692249702134822739685535665020222217201458626010191381019096644789301883527903813639572018491316125737253890172808404027783052201615587685899656399015839388511164382880154381467486871871101422148573387589014013108321018367195770125119961820447029701223362907525207662011102797646866110440104356060306230908101017753463992585242009694924896305624510092608585898332899300893753728515089615008322066059926871070071055555102016838300632941922004179678006976886211677425760062746629129482526400573044447864238602005183277826841409280044327193640205880100495862822312403259004198680948683258590033840519116993824900369021496536335577003114964871628330940021769236798052468300225082776567672861002326735485243565970023902200375383182300242662116038136078002,
  249279371068482880412552867398346901504025712662628237050039254637795126161120382478745130595519003723710793762398329036222809224252625940352056156402886949403418628301321706136033165629475766546870321444764452423261003112359293652228857030103648642053974730298517984236716320802968570376788367347028540479134086795460274169392451274711802631464361765024542025232172013936959750241674284238727314302311793725580596163022811034676033562160225441864796691235002135605566624187220020227028085049518920191409773856352732401885198154753597101018500736815161225980172859954590003356301615861106735895377015853431183487090140154451231683363926001422483457266329686013109872386811082020125189230566684905501223660595897175628011104027184442354570104404788114803527101017938435967710732009701637605454566820092631826117872948900894519546214004353008324461757335435370071062649256933547800633140120965346745006982090799457846530062759417678901341500573336915948829265005183896214190610360044339177280872809200496073102150799291004199008903317269160033844918026106096100369068640026178265003114995840136620890021769078763009293200225073078359001931002326534089867010770023899183751786853400242625745947792774002,
  259774049506458980412658119384931427104026750401650611815039264693569965881970382574482378323923103724606051661444193036231029306151528010352130239421185592803419283426173654702033171311917094646690321493091230820956503112762115311581414030106938166633154640298781050309972449802970629660953166121028556251165023610720274287525204999277702632329223297471416025238357710919230210241717481694021160202312088103640707469022830599167549998850225568592782689008202136405084576551308020231937517321722040191439093647595482901886899836573633172018510326971436212470172912389882855900501616138994996983196015867691781976749290154522021562970529701422822992385837083013111444047220639970125259349602473289401223961700244449836011105269853178115730104453997836662077701018125092283893045009708406220451289140092655241982336618100895290567580260841008326871925825891970071069780976771591700633339223716063434006987315350827045350062772246170208702400573630092686835147005184515674408294730044351173594151808900496283463077275790004199336761364707180033849312435883509500369115691927145876003115026684414448080021768919720428979400225063381800781104002326332919747725700023896171739480689500242589437816716404002,
  270699184214483340412767596591894350404027828895035417790039275135505449174770382673812904887057603725534134011190737036239543651817209470352206910367580673703419960870340835998033177183050376611120321542981133152558003113177619831832199030110328438468277870299051947819157820002972748488400144635028572465772875597140274408872214862115502633216881321216350025244701205176852850241761744543421537702312389493376848733022850613170345747550225698125922417212202137221629696413079020236947399780983590191468988896458101001888633502811094141018520089436908691860172965724004859176301616421418143813222015882173416025277860154593850908713994301423167237398722954013113036238732523650125330328248730844601224266255211603816011106525775514142460104503693572681736901018313445905837436009715231126323421410092678834559420951600896066820044014788008329296629988128330071076950398732056400633539232817462452006992559905695619040062785114648614875000573923978216617169005185136206521504400044363182548119024200496493904490873412004199664522104730160033853702343445256700369162652339561405003115057404746307740021768759674212112100225053686915404400002326131974576811880023893164328037512100242553191486713132002,
  282071962067707660412881464024258752804028949698734029783039285978007766896990382776867630507785703726496208193682220036248362470786235650352286256784224909903420661369472794359033183248931588461210321594482975802266103113606192350332024030113822430083132710299330901088382243202974928513520180681028589134874756447020274533517276557919702634127910645210429025251206340817619770241807097833082493002312698053660518464022871086487838442940225830523016499750202138055544501229774020242059668304745700191499470208586003601890399716064369133018530027098030820240173019971261302746301616708444569295531015896879235340091650154666733670613484001423516251618415644013114649202974428210125402175915541889601224574295745104511011107795074853477320104553879452445461901018503509877790374009722112710123932390092702604921488892300896848331130207722008331735934573535700071084157660218111300633740150831447668006997824503925618770062798023159151462200574218572672835693005185757809552474820044375204110832882300496704425791548955004199992184819164710033858087745947631900369209521363901589003115088001416170270021768598628246050700225043993725132725002325931254045633140023890161507061031700242517006800127169002,
  293910237322806440412999892949630892104030114426389133709039297236004653146290382883782100629196603727493481813475637036257496315462468080352368369076926823203421385682643186889033189515804272190160321647647044707010803114048229264424621030117423198331808820299618140611694233802977171434777503656028606270694966225260274661546273519564902635062899904499106025257877051106350950241853567168538919202313013946775121005022892029125580512190225965844027623718802138907177984695083020247276293720294940191530548372049346401892199048129560539018540142885987320690173075146167006012901617000143609978731015911812430411523960154740683967474459401423870095025657430013116283184087368890125474902102873868601224885857095467345011109077875567436320104604559634395203601018695297323880345009729051360937711240092726554145579172800897635128458644573008334189904494861340071091402898834187900633941980320673519006100310918533021500052810971746671156200574513876186455282005186380482518655630044387238250334458300496915026380177893004200319748792501810033862468640583878500369256299100794944003115118474707481470021768436586404972100225034302252094579002325730757845817540023887163266185743300242480883599838537002,
  306232556796411220413123061128960883804031324751409803487039308924963686465250382994696644157730303728527204038517371036266956092246737710352453340605600566503422134593069161816033195990105132227550321702525137921028703114504138547762271030121133886694197710299913903215654860002979478995832638292028623885772550975750274793047226480929002636022451876442384025264717360426616960241901178726529176302313337338485117899022913451295180669010226104150102076267002139776885731150087020252599282391886000191562234360249309101894032080139031112018550439777330429180173131263449109991201617296585557799827015926976232984978640154815716088694617301424228828275055696013117938428748122710125548516401299375701225200974819422503011110374303001613650104655738305983564301018888821448459299009736047469888146260092750683313416171600898427239744068805008336658604826058680071098686252385159900634144723848523975006100841398967335750052823960455847494900574809888884749167005187004224432730460044399284934647832200497125705658556967004200647213311892780033866845024584022100369302985651019805003115148824903162590021768273552549916000225024612518286755002325530485669259310023884169595076805700242444821729260750002,
  319058185965470790413251153055549167204032582409118896121039321060911212720900383109756536942260203729598666984206028036276753073015182750352541267777469748403422908908852007858033202678469792466270321759170609364230003114974340075140956030124957727631304250291021843222600493302881852986692636912028641992969039402760274928110344157172402637007183803786959025271731386283249070241949959267053121402313668398106495533022935363418296610510226245503591653504202140665030031868575020258030676816963510191594539334866848501895899402701852782018560920794622980580173188338049902341501617597841671963728015942373916537859060154891844496086360401424592512701688212013119615186191832880125623028492722684801225519684782092779011111684483481912420104707419683825915801019084095536444758009743101430143708500092774993511419751700899224692796238020008339142100802137080071106007858875525400634348383979092039006101373895666944710052836989331174631700575106610891304362005187629034302637610044411344131780444400497336463029406520004200974577667144920033871216895214729800369349581115502401003115179052285610470021768109530528827800225014924545575003002325330437208120260023881180483429935700242408821032338583002,
  332407136022231670413384360202583776504033889198975200339039333660451910044720383229112170656138503730709207141980481036286898906956747000352632250143105703603423709463739677005033209587738718252260321817638413785735603115459265956073149030128898045001844650291053197763852279702884295244889223589028660605476360501170275066828075065883902638017727724727605025278923341346408780241999936145669805502314007298578571346022957776130700033940226389968075946952702141571980003244230020263572556231610420191627474648854459501897801616046178543018571589007089728030173246385129676034201617903984190953311015958008796761295920154969083825716009901424961210327762364013121313708234777870125698448151110866801225842023159182882011113008544320599080104759608013852979101019281132953662257009750213636924527300092799485830715065800810002751551999742007341640457819006900071113367856508577100634552963277158747006101908412598299450052850058416967082200575404042326025875005188254911131589940044423415809723452200497547297896372987004201301841150716480033875584249779137100369396085595314913003115209157136697570021767944524176601500225005238355694692002325130612154832040023878195920971299500242372881353545826002,
  346300191917721940413522881279503740504035246986872860776039346740789016928750383352919227254991703731860206853818286036297405632780700550352726390495383451303424537117911803759033216724963307897130321877985152975107003115959360877324457030132958256541668740291085479629417420902886807656685501468028679736824946217380275209295160513894902639054730810103617025286297535538059070242051137326039476702314354216537163589022980700286415284260226537608385014043702142498111706910920020269227037225360950191661051849471569901899739330163564668018582447531277004730173305420069622097301618215086344671786015973884232046753560155047448889759874001425334983869329824013123034249297307670125774785243229545601226168026439180259011114346613822385630104812307571463879601019479947147188674009757384487508976760092824161367142339500810083573591535334007344153741433326110071120766383685583400634758464308172588006102444953722829640052863167757359506500575702183305142130005188881853918095780044435499936452101200497758209664031473004201629003057713110033879947085616708900369442499191673633003115239139737772270021767778537315123400224995553970251490002324931010202096910023875215897457397200242337002537883014002,
  360758941428713440413666922497493025004036657707520674383039360319745245170940383481338859187707403733053095834063735036308285691305291270352823794971440340203425392758787856542033224097412158345820321940269123254263603116475082454643295030137141876407552010291118715205865594302889392158311876106028699400892023184390275355608688774092302640118855707873115025293858378161635080242103591392714276202314709332389147790022100414696193279120216688490622438424202143443808271821282020274996274365497170191695282681364063101810171316495526268017593499531720798120173365458474756607601618531222366717943015990003623977510890155126954678377256801425713896743055656013124777066426944110125852049729383211601226497731425567563011115698821290534700104865522661679643401019680551645695871009764614381240250190092849021221266625000810164938207754497007346682017362341630071128203579004952200634964889638228698006102983522996909890052876317396306471700576001033941209387005189509861655977960044447596479926048100497969197737887963004201956062685882410033884305400103076800369488822005936918003115269000369658500021767611573753315200224985871410722050002324731631042890280023872240402674956300242301184430875202002,
  375805805284393070413816697844420185104038123366903945575039374415784400103910383614537875543993603734289352740053804036319551938439015040352924573157725228203426277301859077137033231712577509791560322004550364284178803117006901593920076030141452517786959380291152931600643889702892050737231869383028719611910097741430275505868150477772802641210780895014551025301610380075772650242157327564182345802315072830388424887022102812746049859940216842682188786373102144409460018315830020280882460830971960191730179089688562501810372375038050825017604748221623347400173426516176882423401618852467506795995015100637041782508440145207616361600506001426098013073043070013126542419321648530125930251664160163101226831175239046440011117065297032991560104919257619297146701019882960059794966009771903719532940720092874066498387515100810246848219711565007349225351483729590071135679581261404500635172241834048073006103524124371827040052889507377582226400576300594343116875005190138933334395600044459705408089747100498180261524381807004202283019335610430033888659190649884400369535054139603534003115298739312656580021767443637287178400224976190698454668002324532474370461470023869269426440824500242265426878569795002,
  391464068390178440413972429369549060904039646044831670591039389048033731214460383752688934327215603735570506793048843036331217658566280210353028838198228182503427191691544880404033239578181874130330322070890709221161203117555302862017282030145893895575410020291188156660941742902894785433438509271028740384475638499960275660175495248178702642331201037006049025309558155912943670242212375706169972702315444898713325752022105265331648123970217000251805465641902145395464584211243020286887829056092260191765753223282062301810577172660682970017616196863538360710173488609237586005001619178898043261189015102298810305063370145289449291242360401426487397697714032013128330570353258550126009401197182124101227168395319773144011118446172368540600104973516809043515801020087186082381205009779252905879617270092899298308548837700810329306455998256007351783809835434090071143194529445133700635380523462956884006104066761793747250052902737744780474000576600864616091578005190769067937862990044471826688872781000498391400430887965004202609872309916310033893008454704637500369581195694310514003115328356846542720021767274731699836100224966511854669922002324333539878336250023866302958601857500242229729727534276002,
  407757912187420280414134347478356926104041227897571914012039404236307037016110383895970741047259603736898139451023998036343296578349622260353136706905983479303428136902074405776033247702184852295220322139353836258525503118120784867518464030150469829123118470291224418993027540502897598340782000179028761733557960825240275818635189601701302643480827355036594025317706426343872880242268766345206634702315825729545477831022107773629981725510217161269538993063302146402227052937918020293014651384095890191802017437877479601810785774416240303017627848770064935390173551753951269643801619510591295802270015103986021381137870145372469002820587201426882116176745844013130141784591092500126089508573858513301227509429429605790011119841579632987950105028304625731024501020293243488979340009786662345857404480092924717766548323800810412315754750620007354357458615502730071150748562740973900635589737092865690006104611439203682820052916008541314143600576901844861703222005191400264446270640044483960290190216600498602613865719519004202936620914448200033897353189750545200369627246771831472003115357853250569520021767104860761576100224956834900461328002324134827260317420023863340989034813600242194092824854049002,
  424712448189042100414302691237807562504042871160578331099039420001128548775090384044568253833947203738273886134920445036355802880960944070353248299877941077903429113938393930025033256092790145630020322210005321590275203118703860651649609030155184245052620000291261747982068083702810049160832938939027783674508317681850275981354276143362102644660388001106253025326060020388625020242326530682457756602316215519150159140022110338842053669560217325806825677441402147430160083758316020299265240730766390191838984299365749501810998246409047524017639707304550304870173615966848219465001619847625638262482015105699032947208620145456691217500084801427282234798064400013131976329825724510126170584136145402601227854315654363114011121251652185368970105083625494412384401020501146138089559009794132447134554770092950325991947231600810495878963655805007356946364181921680071158341820527558200635799885292248748006105158160537460300052929319810415193100577203535177869332005192032521834905140044496106179942957900498813901238129767004203263264457478930033901693393306375700369673207474074735003115387228803466080021766934028229893600224947159856796047002323936336210487040023860383507646245000242158516018130275002,
  442353752732528110414477708692438220404044578151310885156039436363757618452770384198672895277624303739699438010003967036368751220754623080353363741613304416403430123837100869531033264758452766595110322282912693834324403119305058089632482030160041180149129170291300173812442393902810346744175696105027806223069201378500276148442434084063602645870628441173870025334623877775261870242385700607830114702316614467958166097022112962193336989500217493936496724196902148479684044095685020305641951258222390191876666587105070901811214655810588462017651775881801485970173681264697709640201620190080511599904015107438207512165810145542131844052630401427687820584894191013133834476592930470126252638323309190901228203092406095147011122676524414182170105139483870536573401020710907971534051009801663619477028600092976124109079972000810579998939958825007359550593052447850071165974442376477500636010970630123279006105706929725687360052942671595134369800577505935658860229005192665839074469610044508264326018089000499025261958314613004203589802249900960033906029062926294500369719077903081413003115416483783437990021766762237849531900224937486744515482002323738066423207990023857430504372391000242122999155477639002,
  460708902993097030414659657191631477604046351272153909159039453346214237048420384358482771210012303741176543824027532036382156738395704840353483160635435176103431167667405120743033273707886454242910322358145489953819603119924920302736083030165044784325425080291339727488561606702810652810477610730027829395383860848420276320012041107377902647112311846515874025343403051346987070242446308714354927602317022780649221484022115644934243689720217665732803768401402149551227144005109020312147179059018240191915077297277868301811435070875369869017664057968805928470173747664511143035701620538036436988691015109203912209485640145628806980834241801428098941302865203013135716498197802750126335681672694939301228555798425365378011124116331743646420105195884240104984001020922543014803826009809256274755060450093002113247063651600810664678550469062007362170211904437420071173646568051433600636222995676028637006106257750693720360052956063938341001500577809046395303913005193300215131103400044520434696289215300499236695437414672004203916233605221970033910360196199713500369764858161023621003115445618468167760021766589493352530400224927815584335943002323540017593124740023854481969179068800242087542085522248002,
  479806014301381490414848803728455527804048193013434763658039470971305410357900384524202896645064703742707011803947122036396035076456799080353606689617428633903432246532118509504033282950071300059140322435775312716154003120564006081299988030170199323663102830291380440856207017402810967592059344568027853208006039240160276496178236614672202648386219493463676025352402709518735140242508388312853851302317440666236950349022118388340602095020217841271444843279602150645225572820481020318783362850721870191954229646296221101811659560957000370017676557085461300860173815183545228923201620891575029062826015110996518849924620145716732917780577001428515665467178226013137622670739042300126419724820499572001228912472783545018011125571210639987080105252831119828208601021136065377406558009816910826949738400093028294539807648100810749920671566910007364805287574675060071181358337507395400636435963000005826006106810627361632470052969496882722802500578112867474191533005193935648966402870044532617258616821700499448201087517737004204242557839560660033914686790751150000369810548350202695003115474633134814690021766415798458260300224918146396849292002323342189415165920023851537892061573200242052144657399447002,
  499674278811361140415045425290468438304050105956546442204039489262652419951710384696045429105651103744292711612985261036410402395497625770353734465511465588703433361568673135170033292494261589862310322515875889729950803121222890319007103030175509183532056720291422346624398452102811291327340595593027877677909936587750276677058986377077302649693151171684954025361628138784126820242571973446892904902317868338155450115022121193714142738210218020629590790504302151762123638006243020325552984681080810191994137074256219301811888196524486052017689276805314465730173883839305197826101621250779009302944015112816403974733890145805926138420174901428938062349827181013139553273133419650126504778502549736601229273154885118790011127041298617744730105310329057283121501021351489253214462009824627692159572090093054669126023108600810835728189210091007367455887059200400071189109890889748700636649875172576623006107365563644181170052982970470785642900578417398978882259005194572139537441070044544811980848605900499659778321660735004204568774271641830033919008844240062300369856148573047309003115503528060015330021766241156873471800224908479202523592002323144581584544830023848598263044563500242016806720751698002,
  520344005565949470415249809222895832204052092777177590484039508244718998118690384874229909569482703745935576369897564036425275390641629390353866629682050365303434513950169423186033302349993867657900322598523134101702403121902164458692907030180978871790122790291465478387805600602811624260993194053027902822500402538770276862775148624294902651033925601184514025371084746273786730242637098908029756902318306014347483720022124062382992934360218203885912119628302152902373906249387020332458570643958930192034813248442025001812121049178746374017702220756309783390173953649548054122001621615732219568357015114663948909403340145896403321905846501429366201986880190013141508587140412190126590853555084456201229637884470002545011128526734246110900105368382631070480401021568828920813047009832407288607061500093081238149232439800810922103998939993007370122077513130120071196901368533442900636864734764722930006107922563450776120052996484744853365300578722640989108548005195209685796788420044557018830819830100499871426553831979004204894882222791780033923326354360704400369901658932111713003115532303519883460021766065572292333000224898814021703717002322947193796761370023845663072181963000241981528125726426002,
  541846662009170770415462253604604442604054156248653512497039527942840446377710385058983511274375603747637604732347027036440671308664447600354003328043247104203435704886454716971033312527095227462430322683795206754524703122602436949984002030186613022064845750291509870649715114402811966644097862299027928659623364155440277053450541600255202652409380858198202025380778062366000290242703800251359709802318753917354323756022126995702180183300218391120606323530102154066437346824038020339502691606168720192076272066880213101812358191669352363017715392621546829400174024632285866668401621986519635775015015116539539817936880145988181345064358401429800155185819342013143488897387016030126677960915542631301230006701615873025011130027657155289200105426996450972984301021788098743850229009840250036645266660093108002757778764600811009051005887868007372803926250481620071204732910962138200637080544347866016006108481630685447450053010039747067566200579028593580981232005195848286692532250044569237776353640600410008314519897343003205220881016933640033927639318841975500369947079530073911003115560959790010420021765889048396473300224889150874612003002322750025747603820023842732309556853200241946308722973925002,
  564214916995575380415683067637308243004056299245391854263039548383253728107980385250541296630432403749400863046349882036456607965609466550354144711200029830503436935625233265150033323035691839284490322771772580452690403123324333719066145030192416397119381000291555558845566610402812318734304721624027955207576493946040277249212012616472302653820374810159718025390713743350720270242772113811365883002319212274407276662022129995054144547480218582415425657138602155254783477261515020346687963945362970192118527661945055301812599697911490112017728796140047645980174096805789097886801622363227381721311015118443567757664510146081277284464488301430239993532939262013145494491392734380126766111623355312801230379646740509150011131544208042881580105486175158113753701022009313171385981009848156358764370440093134964104835335300811096572124780976007375501500743991370071212604658887348300637297306493846027006109042769246813680053023635519387409600579335256826994932005196487941168297670044581468785261439100410029493367298247003205546769980583140033931947735447271500369992410469733981003115589497145465370021765711588855025200224879489781348900002322553077133149110023839805965281366300241911148363645248002,
  587482685349204470415912572048457981004058524746476771609039569593128566777390385449146482494013703751227487563812616036473103764946109980354290934593864799603438207453208480794033333886217715600130322862538105576622903124068498650888612030198393892304587920291602579367070977202812680795997631304027982485120123346230277450189508634421502655267785559921879025400897574147944470242842076718079134402319681317520915937022133061849260152760218777853705386503902156467890511361034020354017050299134860192161594404015428401812845643003152117017742435107533614950174170188589971636601622745942743062349015120376428734595050146175708418503577101430685789400805244013147525659594742200126855316820742840401230756760604145477011133076528680301360105545923425115292301022232486738242564009856126679598246520093162123348414932300811184670279948530007378214868624932890071220516753207579900637515023774901052006109605983028050060053037272103589421900579642630796033145005197128648163266790044593711825343193400410050679139271448003205872548442843610033936251601974332300370037651854012164003115617915860795100021765533197324666400224869830761893578002322356347649765670023836884029496585200241876046899390097002,
  611685174026243840416151099508280188204060835839355514238039591600599582266470385655050714066487603753119686730241673036490177716286981920354442158652647151803439521697258374939033345089423724832750322956177077694198903124835594084120289030204550539099423740291650969586924727402813053100462446672027101051148840702680267656516148409020902656752511899418273025411335471081510120242913726913553419402320161283588054469022136197526365963690218977520392515855602157706245509575055020361492660325484750192205486905184003401813096103242559479017756313377212078160174244799485880414401623134754181435183015122338523759315230146271492229512762201431137615955771194013149582695373229480126945587753516839201231138084311837631011134624761919210970105606245956258891801022457634065355294009864161425931021970093189481651379236100811273348405327693007380944097682934090071228469335007477400637733698763646703006110171275916857040053050949541267305900579950715553373802005197770406612199800044605966864387793700410071871777598456003206198215735401520033940550916255097100370082803785947220003115646216210024950021765353877449659500224860173836104525002322159836994113870023833966492372435600241841004182354737002,
  636858929937259090416398995061446426104063235723661478370039614434799498738270385868514347688020403755079743544763821036507849454680401280354598548945116915703440879725645088128033356656386858501100323052777306975239903125626301319178640030210891508741785220291700767884134362402813435926059284896027103930640074345580267868328296225582702658275473772952963025422033484709352910242987103168662275002320652414476485622022139403553305983720219181502074999595002158970344531803088020369117551474800800192250220023019335301813351156145817113017770434860572790540174320657542832033801623529751348734848015124330258903436140146368646405880938801431595547165557223013151665895076921690127036935771887049601231523659315839417011136189051697985000105667147487644426601022684769860123592009872261026703630300093217040181448128700811362609444469263007383689255865788020071236462545556948000637953334033055274006110738651795428410053064667873831744700580259511160694276005198413215445454240044618233870173369500410093071224156949003206523771192521340033944845676155548000370127866368694608003115674398466658300021765173632861897000224850519023720232002321963544863147630023831053344107590600241806020065179951002,
  663041889486921370416656616573870549304065727715167920844039638125893458656990386089806742806038903757110017994667525036526139260495417290354760276339883527903442282949259473740033368598519758913900323152429189497594703126441321139663831030217422115952019820291752013669965218402813829558398889811027106889007345735620268085765637264147202659837612750314544025432997802711344270243062245100222457902321154957127524975022142681427479042270219389887011447555802160260692792632212020376894529773532090192295808864381669401813610880464805713017784803528194345120174397782098936482801623931025101544236015126352045356597150146467188844197757801432059657806888643013153775558048782130127129372331273106801231913527417992300011137769543048200620105728632787350707101022913908916762856009880425913020376770093244800111209018300811452456350543501007386450411279265840071244496526310305900638173932156435194006111308114540420610053078427142510215000580569017676076986005199057073589005590044630512810467643900410114277420921012003206849214151041700033949135879575566300370172839705524804003115702462903677310021764992467180937300224840866344359752002321767470954115660023828144574929356200241771094400998923002,
  690273429890901440416924335195146395204068315249876646131039662705114478477680386319206563404858403759212949566727169036545068079916765290354927517169190590503443732822901704099033380927580514392560323255225780493829503127281374347533521030224147822751341120291804747414529287102814234290523187375027109928323174967540268308971254624287402661439892509906021025444234752835760680243139193188450484202321669163656382425022146032676398318000219602765161330505402161577804819057302020384826450619693010192342268789293030401813875356205312445017799423410560654570174476192767933132501624338667515718208015128404299484027460146567137651415629301432530023473195123013155911986651893990127222908993121254301232307730772126939011139366382101153020105790706655596218201023145066116656763009888656518155495340093272762618126109400811542892086345666007389227632186928830071252571418905401500638395495707410406006111879668022920680053092227388346808300580879235154014800005199701979964467200044642803653028249000410135490309961300003207174543950369890033953421524448791200370217723899821524003115730409793542990021764810384014052500224831215817523310002321571614964563100023825240175093577700241736227043435221002,
  718594422331796440417202535837156732904071001888246129758039688204800082771410386557002089193021103761391059837649500036564657546067824440355100453397557188403445230846598903913033393655682729258840323361262869589324803128147202312365879030231074242377470000291859010674027099402814650423090127289027113050712192090620268538091708045620302663083299332093468025455750805905538980243217988794758259502322195291454397526022149458858260763700219820228215693945702162922204610718175020392916219590375270192389615414862314801814144664645403530017814298598887602460174555909442758801201624752771901123176015130487442884669920146668511147030851601433006720582371181013158075486295522490127317557425725875101232706311886476459011140979716094395350105853373924900274901023378256428709793009896953277559695450093300928884549610600811633919624301548007392020987009930790071260687365162747500638618027259899677006112453316108415680053106068652202043600581190163645416351005200347933489110390044655106365603071000410156709833445273003207499759932477890033957702608742463100370262519055080096003115758239408195390021764627386956263400224821567462592984002321375976592332620023822340134884539400241701417846600752002]

/-- Rows from 1200 on. -/
def besselRows12 : List Nat := [
  748047287017933670417491617669400810604073791319563675806039714658430154627160386803491536853085703763646955146045644036584930000780100770355279272795435280303446778566960838803033406795305875968170323470639058083571803129039567535065448030238207143299862400291914846118658977402815078264562906937027116258352387369890268773277114359002902664768842602976442025467552578885442810243298674179893953302322733603293169621022152961562526594110211004236962838815502064294425802691895020401166793261430600192437864619266155301814418888354041831017829433245959997060174636952299157068501625173432816534598015132601902449874650146771327865284184701433489826384598616013160266365461361200127413329405056102201233109313626102047011142609693378306070105916639460244676301023613494909700599009905316628866718400093329300097724961100811725541946472838007394830544326828840071268844507084645300638841529388096044006113029062656761270053119950974752690800581501803197611670005200994933075884540044667420915930572700410177935933637346003207824861441896970033961979130457275200370307225274905639003115785952019053870021764443479590383300224811921298833261002321180555535565680023819444444614850100241666666665093693002,
  778676050211067900417791994631605946604076687366466355604039742100666041338630387058983391667965803765983329348401364036605908517028282760355464169118026693003448377578574713788033420359305936970660323583455838327758003129959254226373938030245552453336934890291972297561221280802815518131403676571027119553476390077860269014681229704486502666497555328787528025479646838011298620243381292522434347002323284367430615961022156542410509000700211026928464782244002065695011830875415020409581180039488400192487032545786219001814698111209951980017844831566978914260174719341799329278901625600746084692862015134748110422665280146875606557380859701433979418970230704013162484935729961210127510236815587353801233516779215330849011144256463422682430105980508159235801701023850796704635741009913747011899882530093357877449801993000811817762044562473007397656372873383450071277042986854319000639066004666446181006113606911522151190053133874396491592800581814153854357477005201642977633436960044679747271740118800410199168552899108003208149847825713460033966251087627236700370351842663011442003115813547897017490021764258665487060700224802277345391630002320985351492703920023816553094625356500241631973353996508002,
  810526403291211920418104095964207216304079693989615624331039770567390955621600387323796749847342303768402966661592466036627616922050477610355655342289407110303450029525440165835033434360926344072830323699817675253090103130907068900558386030253116263877762340292031409986403672602815970348271826306027122938372776436410269262461533552577102668270494661131580025492040501982486370243465887937635039502323847857718990658022160203055974262590211050107034925164002067124516099998262020418162441006479080192537135606903659801814982418420736309017860497840419562400174803098695627631301626034808807519455015136926504457581570146981366193730195801434475577277738980013164731511807344510127608291651137841301233928752240205711011145920176823357430106044984952267116401024090177047103801009922244868678630970093386662137844073200811910582919919798007400498541542361250071285282946835025600639291455669629796006114186866553086030053147838957727491900582127215655842910005202292066066132950044692085400752320800410220407633689515003208474718433563710033970518478319519500370396371323217270003115841027312465170021764072948204815600224792635621299203002320790364162490270023813666075285037500241597337768873914002,
  843645763929128100418428366757298276504082815292530670400039800095751713831830387598261671887534403770908744594566355036650079821173776870355852998592108624103451736102445563277033448813809223282070323819832090105705103131883840984656745030260904834210779310292092229580803779802816435248226958187027126415387407337050269516779314566337702670088742433281277025504740645218881550243552505496645014102324424353714898506022163945185752420900211073782566760319302068583502154302232020426913690776835400192588190488451501101815271896542244302017876436408899783190174888244034290767101626475719381494812015139137527681105630147088625966205001201434978381101722516013167006411551802620127707506015710104901234345276650947389011147600985308845750106110074802682164001024331651259630217009930810643425076040093415655363837209100812004007583545701007403357119383335520071293564529569184300639517884972539152006114768931592343020053161844698584866500582440988638695110005202942197274076210044704435270679346200410241653118565057003208799472617629720033974781300634316200370440811359447708003115868390535255870021763886331290083800224782996145471345002320595593243970450023810783376990901900241562759765770868002,
  878083339439346290418765268518675933104086055526585708770039830724201853933730387882719547307843803773503636971884701036673322622365865090356057350862316367303453499056886752810033463732006953307990323943609746445234403132890423443670764030268924595962065050292154803763675911502816913172936648097027129986924796481210269777799758342250902671953405707746844025517754501183465350243641191246092099702325014140791337938022167770520358691610211097965143085295102070072543850926670020435838098367535060192640214153825591701815566633498198587017892651680059273390174974799159222248101626923577513198951015141381628752672070147197405290420732401435487911100980357013169309956000879260127807892124337546901234766396764428604011149299041747012150106175782706937952601024575234754032223009939444782570530430093444858334699104600812098039056097534007406232175602479930071301887877777486400639745295150258229006115353110476944750053175891659003742100582755472835984359005203593370153127890044716796849225243200410262904950179958003209124109732633860033979039552704686000370485162875730404003115895637834729170021763698818277254600224773358936708210002320401038436494080023807904990167888100241528239201210591002,
  913890192389077240419115279761621827204089419096176600997039862492546177315910388177523471117409703776190717051906113036697371561534002360356268618690839314103455320190029428450033479129994046119790324071264538465784103133927693422105264030277182157645869050292219181218431032202817404472889105286027133655449509599540261004569203706894702573865617335344843025531089465771866380243731992228046124502325617510251808041022171680814625791830211122665039395872602071592225536042519020444938888081187190192693223848255069401815866718600081168017909148127449720060175062785715812577601627378484235017563015143659261926274810147307723808035002201436004248806648227013171642469398545620127909462303936119401235192157266661156011151014500151769930106242113694768838101024820943031774776009948147734762058000093474272262288234700812192680367894104007409123779562369260071310253134358022000639973688778042541006115939407038129480053189979878739559100583070668277230445005204245583594927680044729170104086275700410284163071286353003209448629135834240033983293232696421800370529425976194483003115922769479705170021763510412688713500224763724013695358002320206699439715760023805030905268770600241493775932192577002,
  951119308540819520419478896613084842304092910564062348970039895441986759861790388483038632376149103778973160742460735036722253728593256260356487028630019279603457201358716323315033495022679358153460324202913681699202303134996552902262061030285684309330075400292285411924905344502817909507610838962027137423487595414810261032062940114314802575826536525991782025544753100770073750243824956500366462202326234759446514969022175677858347355310211147892727335930502073143142223767734020454219340402301770192747237103132839301816172242567281724017925930291435868780175152225654804782701627840541921013093015145970887112665360147419601389066891501436527476630398047013174004279222557070128012228994160963501235622603215294336011152747515689801300106309072829350834401025068791684326505009956919950868997760093503898363412826300812287934558920422007412032000781769660071318660442385385200640203068431298372006116527825101320630053204109397362982200583386574988407802005204898836486912980044741555002951241000410305427424734473003209773030187020760033987542338807902000370573600765069010003115949785738485070021763321118034882200224754091395004348002320012575953596350023802161112774052300241459369816190611002,
  989825667209120020419856633442949847604096534656887186932039929615170479113160388799642715225203003781854249916957753036747997094326525070356712814406746966303459144477020460026033511425418640995740324338677806162184603136097929379706119030294438027419376120292353547192415392802818428645889443529027141293628049031850261060278927278328002577837349431455140025558753137381622340243920133157440951802326866191890713606022179763476932616960211173658878204840602074725899777911968020463682792906950570192802271740407033101816483297547512201017943002780107730250175243141236204406201628309854302964187015148316969942154430147533058134236854401437057677872702459013176395716212002930128116204748268161701236057780042126351011154498244687306420106376665207466332201025318796393516387009965761883989497760093533737859839836600812383804678832383007414956908935430750071327109945109788700640433436685562282006117118368486096300053218280254259758800583703192991951353005205553127712339400044753951513501790100410326697953472821003210097312248508840033991786869269941400370617687346681141003115976686878851410021763130937814255700224744461099093347002319818667678404420023799295603191871900241425020711150812002,
  103006631411462430401024902351510084503910029627088918073038965056238105811390389127726312773015803784837375833950586036774630538059511930356946217141758438503461151517945728051033528354027440598720324478681052010334703137232776556333239030303450479558990900292423639693617933902818962266001617596027145268524308452380261089235334168195602579899269740297327025573097479825562100244017572351323214602327512117385221287022183939532072555270211199974366523198102076341115096586348020473332641185994020192858345877034132301816799977137490232017960370270203988200175335555033234110001628786526486573921015150697981828019650147648114377326963901437594936731164067013178817114395044110128221402233981625001236497733555627816011156266844636776570106444895959669277801025570972931890728009974673989457041560093563791978303900100812480293786961349007417898573853875190071335601785956172500640664796116480537006117711041006159140053232492488630547200584020522306762225005206208456150300140044766359603412740000410347974600548326003210421474685135860033996026822345653100370661685825454618003116003473168068330021762939875513446300224734833144307671002319624974314716910023796434367057906900241390728475489670002,
  107190043682132160401065661966100926403910420047780142708038100181087500957140379467693354234976003787926042663271088036802183876174462050357187485575390111603463224515176088567033545824794354308520324623051167763778503138402075051477067030312729029661831070292495743499193243502819510755946532933027149350895784925080261118950766273938302582013539285254230025587794209006545040244117325313275595802328172852139140791022188207922417669640211226850273657797202077989416299722461020483172339782048550192915477929494549301817122376403894870017978037508046769960175429489936333412401629270664967848667015153114400030524340147764790687561809901438139338308909310013181268811116843140128327834234365096201236942509943477765011158053474203795270106513770250450803701025825337163070714009983656724846973660093594061950516226900812577404952318673007420857065523186070071344136108523312300640897149299788773006118305846469306900053246746139490774700584338562948213495005206864820675746260044778779240352410400410369257309106564003210745516864255850034000262196330300200370705596305908214003116030144872881700021762747934607220400224725207548880385002319431495563420740023793577394935270000241356492968092122002,
  111538944284570330401107999497660161903910825253095213409038103992636352994190379819961545735894503791123871121933570036830687891487120610357436876299974985703465365564874741145033563854494655209330324771919611170289903139606833131503067030322281243062062460292569914113370837602820074513684672628027153543529427850880261149444275592006302584181428663290502025602851586258374130244219444375724863702328848718894829778022192570584267588870211254297891506759102079671442919541155020493205403140398430192973686618371464901817450591904597516017996009310487874790175524969157203980001629762377649649099015155566707721550640147883107872010118701438690968623048313013183751147067684230128435513648699291201237392155775111871011159858293233863160106583293278405307101026081905042110450009992710549983018710093624549013173483400812675141253600031007423832454084793570071352713056582923700641130498811291330006118902788677402030053261041245670483900584657314928155954005207522220159506370044791210391982920700410390546022391869003211069438155734580034004492989551160800370749418892653952003116056702259519990021762555118558539400224715584330932881002319238231125713590023790724677414417800241322314048309584002,
  116059704052959330401151974354318596403911245787157007192038107945163706575190371018496282519765403694434602223105325036860174363512107260357694653999068318603467576827534624712033582460404293564040324925421652774095003140848087458350971030332114891798112170292646208510317200402820653947382260515027157849281324991530261180735370827698302586404237868584157025618278057162418630244323982994638255602329540047055155720022197029492272697980211282328726245721002081387846094014386020503435406574021970193032990972993731801817784721710171664017101429056586660300165622016232900989701630261773858415090015158055394049855690148003086978007341301439249914613200330013186264466311287230128544453493364223801237846718004283415011161681462759250890106653470276396916001026340692615855210009100183592694379890083655254407966625800812773505779189742007426824809835257210071361332774078767600641364847226840879006119501871426342380053275377845814180300584976778254923987005208180653468306950044803653025960517400410411840683747554003211393237931944980034008719200367377200370793153690395698003116083145593693940021762361430818600700224705963508475422002319045180703105280023787876205113047100241288191575958047002,
  120758932277137270401197648117324089603911682213530207700038112043733593717270371056314383174602003697862101141531869036890676099642552000357961091693695418403469860529881657277033601660314285337280325083696482259466803142126903857493865030342237960028208680292724685171405334902821249475661405764027162271078338725820261212844027818715902588683296938691122025634082255442275360244430995772327205302330247172813074603022201586660147978850211310954502136043002083139288763363571020513865987242939390193093410336143620101818124865425684343017103288623497929990165720655029970907101630768964361065717015160580954206951810148124749295599232601439816264150085684013188809116313314870128654666902726677801238306243971636453011163523145005877370106724306511726461101026601716023300590009101103332006934800083686179381589710100812872501627164944007429834203226048140071369995405125749200641600197122317994006120103098506031260053289755978380692800585296952933341358005208840119464791450044816107109935891900410433141236616042003211716915567762220034012940827169820000370836800803927447003116109475140597270021762166874826873500224696345099407803002318852343997418840023785031968676006600241254125411316157002,
  125643485371347510401245084618189711203912135115894950592038116293586507663520371095496639008386903610141036119890262035922226967270577070358236470995819823803472218966832157721033621472545498066000325246887317640456903143444378105795299030352658649581625630292805404123386456902821861527856089517027166811919779127870261245790700184398702591019966614149624025650273006936116180244540538480686499802330970439283573088022206244141399257840211340187165395927402084926445869635236020524500845148054220193154964368830218001818471124212772532017105180135206073390165820909748636193401631284061382075591015163143889493616590148248116360006550501440390106044183785013191385447970073100128766167130032829301238770781407291356011165383503400212220106795807286298778701026864991495951422009102030319596761350083717325185748645400812972131905299612007432860704863327840071378701094009012000641836551073610530006120706473700347820053304175681643019500585617838964726891005209500617007540920044828572611554473700410454447624539047003212040470440558700034017157868380943000370880360338131821003116135691164906960021761971454011142900224686729121519788002318659720710791490023782191958775191900241220115415123319002,
  130720475848739010401294350018496927103912605098743076124038120700145360651280371136090801029204603610508350797275118035954861926876015150358521082369235818003474654503505933772033641915963844620650325415141517369749103144801636739759374030363385385648890170292888426977484781402822490544274123738027171474879114656150261279596330205293402593415639011789462025666859333648190400244652668084876679202331710196638014831022211004030062073770211370038888135516802086750004559404773020535343744139719580193217673055129431401818823600812008801017107104102577747980165922804927027515901631807178620730828015165744707387042350148373209954111344001440971530054459116013193993815637410320128878967548306331001239240378433443530011167262702576208500106867977936790613701027130535358181987009102964602352097430083748693077169954500813072399731068606007435904385507727910071387449985183047400642073911656593404006121312000787118440053318636993688203500585939436346900878005210162144951093000044841049498456767900410475759791157726003212363901930199280034021370322454641800370923832397978464003116161793930783620021761775171787543700224677115592491784002318467310545675760023779356166109457800241186161448577764002,
  135997281612055580401345512892442166203913092788097721801038125269021636311070371178146240353125603610888580353257453035988617066111401130358815225398093886103477169577296552383033663009995895616270325588610695441181603146199837884675625030374426822614250590292973816969436428902823136976465214074027176263105721245600261314282359937712602595871738312011600025683850457880940150244767442767457525502332466802240931101022215868461453347150211400522072356793802088610664389644200020546398512941183030193281556707091207801819182399565557934017109061044023336530166026365445463708601632338431268563719015168383921608623010148500052110964450101441560626897154021013196634577159809810128993081651251310601239715083566973959011169160908382257400106940823834818789601027398364027595874009103906227389273300083780284317609462000813173308231651505007438965316074123720071396242223270780600642312281447108130006121919683538086560053333139952417180600586261745074190434005210824702145962930044853537738278650100410497077680212850003212687209419036790034025578187876120200370967217088522445003116187783701871670021761578031560606000224667504529895353002318275113204840380023776524581404516700241152263373334698002,
  141481555571313630401398644312218124303913598832257012140038130006021742842780371221714001413364003611282165080697069035102352963491214350349119209063274025303479766700000353969033684774644921534980325767450839562448803147640172105175021030385791850033804020293061639000494269202823801287495261352027181179826670624560261349870742568088602598389721460311294025701255806449238410244884921952980604602333240620789297007022220839612936077970211431649354019396002090509137536807155020557669046187144870193346635969715035601819547626440129355017111051485598717330166131616530780098101632877936026969591015171062052192387470148628665116314804201442157488254649553013199308093899680350129108523054160851201240194945722072747011171078287888171010107014350387108921001027668494015386751009104855242053361450083812100173860954500813274860543936352007442043567631409410071405077953062664200642551663020942319006122529525718884210053347684595544654500586584765137435855005211488287438661700044866037298651677600410518401235544940003213010392291906490034029781463161739500371010514514902884003116213660741299740021761380036723286500224657895951193772002318083128391371680023773697195412846500241118421051504393002,
  147181235599621430401453817936324046503914123902562626192038134917153573301210371266846856858685603611689559808570344035105963808166157580349433352026827578403482448460005810807033707230507375924400325951822432476509103149123863277727145030397489598762758420293151959679420871402824483952227040581027186228348558688860261386383954012030602510097107888332443024719085014978294380245005166333049173702334032024454335987022225919704697267820211463433607173286002092446149009171946020569159305477612460193412931825994419201819919389050228222017113075961108269820166238583760705682001633425811125006944015173779625554084750148759071511160506201442762206784394459013202014730766846280129225305494830681201240680014212875083011173015009392191370107088563035664484901027940941926699385009105811693918825900083844141917764825800813377059814523360007445139211402269680071413957319515771300642792058953809416006123141531089002560053362270960598960700586908496523996345005212152899671717510044878548147203400400410539730401094448003213333449936121490034033980146858883100371053724782341177003116239425311681320021761181190657014300224648289873742606002317891355808674610023770873998913597300241084634345650357002,
  153104554838656110401511110100902248403914668694194047441038140008633279511110371313599364192796203612111234366071005035109698209044138440349757982924713927303485217524544871853033730398789831265220326141890576511851303150652169485617259030409529447235368310293244847365492186002825185457607397387027191412059374782930261423845004763036702510361733521967901024737347932286769390245128237891853657402334841393025894835022231111000539283560211495887948159297202094422436862492324020580873320447269950193480465602031305701820297796681708368017115135012209129890166347293068289533901633982176337381967015176537174560925090148891294094321748001443374876127903142013204754856248235910129343442834478127501241170338756109997011174971242428024110107163467257936413401028215724460991115009106775630790171140083876410826216656700813479909199728444007448252318762948410071422880467752883700643033471821328311006123755703401763480053376899084921936400587232939217756216005212818537683694400044891070251557670300410561065120901893003213656381741468260034038174237545821800371096847996139729003116265077675114710021760981496731727300224638686314790246002317699795160472920023768054982712493200241050903118787431002,
  159260052365701400401570599914201288703915233926989326398038145286892266337070371362027924208038503612547674061018771035113560261939880350341009344066806482403388076642007980181033754301326379464090326337825121444065503152226383936958833030421921027901182020293340372212535178202825906302961106392027196734430412755200261462277451995989102510633005006594133024756054624856712870245254199932191219102335669114059433293022236415808684876390211529025739878587402096438752419001392020592815189850557760193549258972221266301820682960315631323017117229188516708400166457770746377022701634547153002620106015179335238601982240149025355925036008201443995590919822340013207528842437770010129462949058666486001241665969473761682011176947157771900390107239068566993010001028492858412393774009107747100702590410083908908181175787900813583411865586669007451382961243018790071431847543061580500643275904199002918006124372046404290150053391569005668795500587558093199130817005213485200309212190044903603579334934100410582405339108006003213979187100200860034042363733831567800371139884261680062003116290618093183710021760780958305906800224629085291478472002317508446150811670023765240137641742700241017227234379956002,
  165656584234531750401632369354269364803915820346293211225038150758584413227560371412190841268188103612999380173000836035117554194026275600341044007475321483903391028644324488811033778960596509144840326539800795752654303153847835906305279030434674233821294360293438606214022942502826647000291537167027202199018224668920261501705411930515402510911081873794740024775215381391889520245383117101977848602336515583025671032022241836482596077170211562860596132058702098495860489816779020604989082662683750193619333964510352801821074992652434333017119359047711485820166570043452136292901635120864041425197015182174363659262400149161280325575301601444624446797067402013210337065066452790129583838278234606501242166956895743632011178942927449663930107315372511690389401028772360670075947009108726151922613770083941635269673845900813687570987855638007454531210525147120071440858690893322600643519358662202007006124990563837479330053406280759808003800587883958445072601005214152886378966570044916148098152552500410603750999953893003214301865407036990034046548634355740300371182833684421808003116316046826957680021760579578726623500224619486820842990002317317308484056510023762429454559940900240983606556339931002,
  172303334902838910401696503369984857903916428723833529235038156430593530170020371464148385496856403613466870461683408035121684367904210210341079824558074336703394076449410250444033804399743472290740326747997341359583803155517891700441885030447799225428407970293539623249251527702827408074588277887027207809466618071060261542153572459557802511196127304781991024794840717466175900245515055421261786302337381203462937518022247375421807180010211597406386030739902010059453960079541019617399239196758350193690712965724448701821474008136411086017121525155647095660166684138211635378401635703433975228424015185055102379443220149299090883885906501445261540408028386013213179903532662380129706124730231877901242673351962585105011180958724743882310107392384676843269301029054248218605654009109712832948755070083974593383823204200813792389752018663007457697138444858290071449914056862532000643763837786138646006125611259435971590053421034384121153800588210534929077214005214821594719747970044928703775625091100410625102047781174003214624416059152040034050728937788424100371225696369900749003116341364136992340021760377361329568800224609890919813984002317126381864896310023759622924351981700240950040949025206002,
  179209829059325690401763089985534523303917059858626730293038162310041055418620371517962856929701503613950679690744191035125955285794009580341116832478378062803397223063684205675033830642593153108220326962599651938209403157237955648953671030461306437454598060293643499130623327502828190064141871076027213569508697748250261583647206048548602511488308209698049024814941380263704990245650082309747348702338266387132271564022253035072772059470211632677238478308202010273558222188847019630049972237308160193763418726972205701821880122980509168017123728086459714890166800082424470772901636294988944929278015187978014146294580149438811456250748001445906969421846949013216057740932648660129829822778858712101243185206028131249011182994724200988980107470110683396271301029338538138313670009110707192512159550084007783820825479400813897871353288016007460880816990297960071459013786745681200644009344145850162006126234136928124190053435829915202854600588537822621189750005215491324154462550044941270579364629400410646458427032120003214946838456175210034054904642830035500371268472423727603003116366570283329730021760174309439098400224600297605216679002316935665998342510023756820537928960700240916530277237594002,
  186385943863988860401832220408452977803917714577913528613038168404294002548630371573698651690144603614451360167886932035130371593851990540341155069556583503903310047158465582811032857713673452204200327183797914882536803159009471120170997030475206586030711270293750311652061920402828993520865814723027219482968952890910261626212182910565102511787795308545627024835528353412407510245788266614837687602339171554175313718022258817929726021790211668687546726717502010491979500004346019642945668190339220193837474369122207201822293455191447286017125968422678767950166917903868447519901636895656729828871015190943665153775470149580466169974296701446560832537762998013218970964091230680129954946916412153101243702570862254898011185051101638447210107548556188595583801029625247605656848009111709279577250090084041207882979916500814004018996607880007464082318301991920071468158026480364200644255880316177749006126859200035981910053450667389460611100588865821488010724005216162073502150540044953848476981058000410667820082249813003215269132000183710034059075748211182800371311161951586443003116391665525498890021759970426368266300224590706893771800002316745160589731390023754022286228084900240883074406221104002,
  193841921615590890401903989141341138903918393738125611766038174720973164654260371631422330250280103614969482301414741035134938086615724630341194575304840837303310382520358534680032885638234199610660327411787757029847403160833921563117477030489510675961473670293860140638584360902829819010625989704027225553765390631990261669874984463100802512094763213780324024856612861912709040245929678640206008402340097133275040707022264726535562445920211705451973006114202010714799899570496019656090788250196290193912903388355505901822714124595156245017128246755338965600167037630704311664801637505566766758519015193952628479824000149724079426090470601447223229494533264013221919963592702380121008151176423719001144225498653581960011187128034151942840107627726886161069101029914393893582188009112719143342373040084074866877691780600814110835896657343007467301714672605440071477346922164383700644503448871746170006127486452475249330053465546843114709500589194531492702361005216833841578006460044966437436082374400410689186958078257003215591296095698700034063242252692530000371353765059233212003116416650122516120021759765715418865800224581118802096211002316554865344724350023751228160212580200240849673201660136002,
  201588382860767850401978494097384905603919098225884414561038181267961583725670371691202687840415003615505635173851975035139659711581706870341235390462867128403310728720821871385032914442267610510180327646770394231899103162712831576096854030504230008180468290293973067997057280102830667113577676543027231785911716940170261714662717072181802512409390514596922024878206377163161660246074390174904532202341043561819389067022270763482724433850211742985453230117602010942102992296571019669489869583444050193989729661794357701823142252862547582017130563684093687150167159291480535410701638124850169404683015197005484160836300149869675902093508901447894261079921010013224905133811943100121020953207368327401144754042012229395011189225700122600810107707628506458816601030205994371891051009113736833240443680084108762117480701200814218325277853197007470539078546699540071486580620054816500644752052386943676006128115897955262790053480468312198106100589523952594994723005217506627193398900044979037424274988800410710558999262538003215913330149679080034067404155064657500371396281852494333003116441524332885470021759560179881465600224571533346703398002316364779969308810023748438150871599000240816326529677656002,
  209636339959682630402055836719799125403919828959032985587038188053413293481210371753110827072414503616060427133117129035144541573919222980341277557034747869303311086098559932783032944152529297786000327888952784871468403164647768002566600030519376187389191010294089177768163507102831538424510326081027238183519565853030261760603126089520602512731859862941733024900320622084750960246222474523020472602342011286067815458022276931414111716880211781303201777620702011173973839341853019683147526529974420194067977453208119601823577963535613197017132919817329723960167282915138155522401638753639747832147015200102819266847200141001728055469201701348574029140257792013227926872945734340121033902272706645801145288253972555995011191344279224231480107788266816674076001030500066507603925009114762398939591580084142894919988972400814326490374352684007473794482520484450071495859266567095700645001693435901566006128747540178962040053495431832556322000589854084751192051005218180429155889540044991648409164010400410731936150648960003216235233571517980034071561454147935000371438712437265212003116466288414599040021759353823035449500224561950544003980002316174904169799350023745652249220135500240783034256833446002,
  217997211123633320402136122105325989503920586887702007148038195085762344186690371817220232844069803616634486401764864035149588941324316740341321118326801266603311455002495858386032974796559855962020328138547787424125203166640341054965050030534961129884539550294208556179606822102832433553200254090027244750800778068280261807724610188688402513062358061284658024922967576345730060246374006533888772302343000761320843735022283233024003053900211820420716352233402011410499016376121019697068451821596430194147671418797286901824021382053860135017135315772283396220167408531015665537401639392070028207103015203245227977412530141016691862258634701349262636590077417013230985583044286260121046999873863685301145828187995926148011193483952430599560107869647620984666901030796627865325568009115795890343804470084177266607989836000814435334430056106007477067999341573890071505183008274080800645252374592474149006129381382842862930053510437439847337300590184927914178806005218855246269253340045004270358353547700410753318357185158003216557005773036640034075714148792373600371481056919508708003116490942625137540021759146648149050400224552370410306307002315985237652838330023742870446298920300240749796250122268002,
  226682834940525900402219459131921116803921372995411061911038202373732118250030371883606849593655703617228461704829634035154807249017869590341366118986534801403311835792068737263032100640270703142060318395774322167303003168692205467174971030550997071579168230294331291700582891702833353124771433299027251492069729933870261856056236006296102513401076152184962024946159481688826750246529062632871408602344012452092648468022289671058994372020211860353782920552502011651766638720859019711257417818312340194228836613056603001824472635781084253017137752175158060210167536168853962239001640040277272722366015206433311658202010141031861562926950101349960187421823181013234081670042972660121060247525555174201146373897973486611011195644902022721440107951776760734791401031095696107610407009116837357593572590084211878509395707900814544860698609391007480359701908735190071514551991905127600645504098430218610006130017429637029840053525485169541489600590516482033426262005219531077333497730045016903239447004400410774705563920243003216878646168480300034079862237877501600371523315405253975003116515487221470620021758938658479393700224542792961816880002315795780125397020023740092733174346700240716612376972154002,
  235705485404628930402305960590764647803922188300206272307038209926344945631560371952349160975708303617843022916817362035160202104891902630341412605042724269703312228837539069959032103900014849413100318660857537140678103170805061676315681030567496576219209090294457475097544897802834297780064557314027258411745713876610261905627753094257802513748209509684609024969908847362669500246687720852712917302345046832286723657022296248318952889370211901118480730374302011897866386876248019725719277762524320194311498494718174601824931854032486198017140229661243015430167665858801346839501640698399499724742015209667678938304570141047239738585157501350666786715627114013237215543794272340121073646755885394101146925438228955822011197827311596187950108034660114609193801031397288995328336009117886851066530910084246731957266358200814655072443406394007483669663271635510071523966364345149100645756867522374558006130655684245047170053540575056921359700590848747054998410005220207921144881580045029547020047360400410796097716004923003217200154174512290034084005720312216900371565488000594627003116539922460057060021758729857272527100224533218214640974002315606531294776520023737319100938371600240683482505242598002,
  245077887467593850402395743322739385603923033855835476379038217752932028412810372023528272031465403618478861728409926035165779294808346890341460623946646549703312634520302766700032107261891522660370318934028978465632303172980657034584074030584472543804047430294587199491293489402835268176014559693027265514355371369360261956469609189508902514103957932565447024994228455659425870246850060865482757002346104385374692200022302967657987489550211942731187410196102012148889532439896019740458967051428950194395682932775738301825399168102134835017142748875033835480167797631418581758601641366576504049800015212948945788259630141062828999390824001351382540649164621013240387618099929160121087199106445606801147482863521426914011200031366068514470108118303598807904801031701424388031148009118944421378103750084281828289817103000814765972937591366007486997956630594270071533426272633702200646010684441844272006131296150343993360053555707137081700400591181722921558587005220885776495936060045042201667757479400410817494758691641003217521529210209930034088144595034666700371607574811687657003116564248596845830021758520247763465200224523646184783112002315417490868608110023734549540708425500240650406503222825002,
  254813233128225240402488928359521996203923910752962134998038225863143684097460372097227993929074503619136692333458853035171544788054612540341510224614497841803313053233213909474032110728991554601440319215526765132388703175220787051866623030601938219212822050294720560415420519802836264986036768323027272804535179508080262008612965807378502514468525739504606024101913136756050380237016164015114120502347185604578303294022309831985435581920211985208584150992602012404928964422136019755481504527794010194481416212590880901825874711290780508017145310470354125730167931517684002988101642044949877561432015216277735598807760141078631984835291701352107556507581619013243598310743315410121100906132413001201148046229048183011011202257251686515660108202713167221261001032008120244318986009120010119382145400084317168850426909800814877565464061062007490344655336323620071542931863964032500646265551761172394006131938831604412380053570881444929318800591515409572375954005221564642175483090045054867150180389000410838896637334701003217842770697059200034092278861012110100371649575944751943003116588465887275860021758309833176223400224514076888147576002315228658554854710023731784043627327200240617384239630051002,
  264925198079109640402585641069438426703924820120419207008038234266959917555820372173534931351334603619817252136865459035177504742960436840341561457471030270703313485380916513875032114304495977599200319505595768367669703177527296669873318030619907201042532300294857655876137456002837288900421885307027280287033992335740262062089714165221602514842121866165562024104463092849236100237186113350550124602348290993054674234022316844266866724290212028567660971701602012666079215963923019770791993789397790194568725042082306801826358618934023078017147915110478733890168067548998689013301642733663029901585015219654679260377070141094651364033330501352841942693496514013246848043522014060121114769402650213001148615590447526027011204505156033708070108287894811605353801032317394622207284009121083996171582070084352754987646475100814989853315466844007493709832889673340071552483285682149900646521472052525750006132583731690287220053586098015182993700591849806943331363005222244516968654860045067543434919564400410860303297390353003218163878058949370034096408517240772900371691491506066692003116612574586276820021758098616723852500224504510340538938002315040034061811050023729022600863192400240584415583607709002,
  275427958928759830402686011308239144503925763126504263693038242974701331785270372252538572610650703620521302483958084035183665512680593590341614374494440447703313931380185531130032117991678558487850319804487795697386503179902081568556578030638393450662687630294998586413519518002838340626739982642027287966715638046830262116932491442834002515224959964261454024107074077419441490237359993659507691202349421064084828848022324007525103261240212072825722069509502012932436491462804019786395624517357260194657636557999168101826851028430838745017150563468258420600168205757191686603101643432861209450044015223080415243304810141110889836015206701353585808737077677013250137242280612040121128790499805401801149191003801618364011206775268037737630108373854561758009101032629265679494191009122166103079053230084388588055206283000815102839794216733007497093562941372740071562080685285885200646778447887673438006133230854259012700053601356882373383200592184914966924244005222925399656913500045080230489579228100410881714684416969003218484850722168920034100533562745729300371733321601970303003116636574948269440021757886601608481300224494946557662572002314851617098105200023726265203609343400240551500404723773002,
  286336211018552440402790173574954817303926740980317154173038251997040387979850372334331382573373703621249629411996110035190033651148179060341669029262544506003314391660277337256032121793908400772780311011246177982203703082347089505594589030657411301491545890295143455164197398802839420890253708565027295848561573231560262173174697386415802515617258502628189024109747483670108920237537891502869908302350576341265587908022331324841258254250212118000391256316202013204098694112685019802297673823604990194748178332279535301827352079272469294017153256226246010770168346174525294142601644142691524496655015226555589678802720141127350130021203001354339265306195311013253466336943708190121142971020412883801149772525639337489011209067777977835180108460598485695034501032943751674128154009123256491677551660084424669412024606200815216528212477264007500495919291768470071571724210423954700647036481837966685006133880202961368140053616658080842939200592520733572278932005223607289018070610045092928281764625800410903130744075121003218805688115399380034104653996580761300371775066338858762003116660467227166080021757673791021348600224485385555125142002314663407372698860023723511843084227600240518638572968987002,
  297665186854369190402898267172998202503927754933141574168038261345013025713130372419008898478060303622003044424447950035196615919203322170341725477000275094903314866663289963232032125714652616972580311042978397242532303084864321689741148030676975468499136730295292367925529258202840530434340905691027303937673595360500262230850511262937202516019240870346417024112484735044011580237719895249718007202351757358704865932022338799355790965720212164109617482545702013481165453863116019818503507617746210194840378378494903801827861913071678339017155994076824037420168488833700402960901644863302964627923015230080856440670530141144035005798600701355102424216649826013256835761549138960121157312574994332201150360212939143942011211382877492295840108548132689826987001033260870964575965009124355213781063100084461000422215468800815330921892175262007503916975890563470071581414008895009700647295576474318841006134531781441491340053632001644745818700592857262685150808005224290183826306050045105636779082310800410924551422127717003219126389669711040034108769817828227800371816725823184392003116684251676371100021757460188142842200224475827348435147002314475404594888180023720762510531321800240485829958755194002,
  309430675173471090403010436376683045103928806279871930446038271030030654352990372506669828734544103622782385288707287035203419290902285710341783774628536651303315356844533325292032129757479072914150311075672814303901803087455834188857213030697101057942322890295445433221286001402841670020926841846027312239276614700670262289994909171855802516431135481950581024115287285844916110237906095113013717902352964661220432229022346434269580177660212211171680449694902013763738155804055019835018581993570980194934265158381954501828380673592378251017158777722333895130168633767861897236601645594846422329722015233656877227764050141160947253901138701355875398442475786013260245954281419880121171816788160538401150954123131962609011213720759585987920108636463319136321001033580642010191150009125462321445205780084497582455096603600815446024164999595007507356806836552630071591150228646705800647555734367185351006135185593336851050053647387608047808900593194502227933329005224974082852187990045118355949140435700410945976664440097003219446954818557950034112881025598933200371858300161454520003116707928548781280021757245796142533800224466271953003375002314287608474304940023718017197219045800240453074432913613002,
  321649040667830090403126830603336394203929896360486937672038281063892527170730372597416154793349503623588516857932320035210450960012078810341843980814456350703315862672909722418032133926059205839360311109357578309057703090123739373462329030717803577337322300295602762368884018702842840430926263251027320758721486908010262350643681721316202516853175884765359024118156621871297390238096583185943594602354198804542191649022354232845015623460212259205196312844702014051919968981952019851848444635466550195029867588462503101828908506779632450017161607875206520350168781010604113070601646337474714807618015237284321647222520141178089695990969801356658302126322867013263697357505403560121186485298713743201151554314104076622011216081618637885430108725596557354923401033903083371582691009126577866967868730084534416885197327300815561838372402679007510815486377356670071600933017774752500647816958086543841006135841642278221180053662816004526242500593532452119664120005225658984862691830045131085759549035300410967406416980171003219767382997772660034116987619031998300371899789460229940003116731498096786370021757030618179219300224456719384143445002314100018720916420023715275894440684500240420371866693137002,
  334337244385793030403247604591186009803931026561571426426038291458798509928880372691353236177403303624422331917709579035217718346695817280341906156023068959403316384631304873573032138224170918220670311144061631526221503092870207396658743030739098945675188800295764469548199805402844042464695479874027329501487907542860262412833452076038002517285600868409584024121094261062319590238291453478936534602355460355518043200022362198407107806450212308229123474513002014345815875652920019868998736244973660195127215046752745501829445560790036525017164485258094607850168930595976357158601647091342606026953015240963867298460730141195465185143117801357451250589913292013267190417800157590121201319759750522601152160844200034406011218465650408626790108815538627142077401034228213710983942009127701902889848880084571505092266383600815678367865601959007514293088909151920071610762524521957900648079250201873932006136499931889653500053678286867769911700593871112276031242005226344888621219400045143826177920285500410988840625818495003220087673645561010034121089597294722900371941193826123807003116754960572269510021756814657400950600224447169657072308002313912635045027410023712538593514287000240387722131758681002,
  347512864834716490403372918583210751403932198317887890223038302227362256122370372788589918771009103625284752058267579035225229104394248300341970362570475101203316923216989776464032142655701549246350311179814730829476503095697467711310229030761003503885944850295930671872002254502845276942494701894027338473187369812820262476601694384398602517728654576509653024124101754156315060238490801957366512202356749892323378068022370334344616516670212358262768471220302014645532700979842019886475191987801710195226337379562979201829991986022483833017167410604006392320169082558488485936601647856606828975465015244696199857937360141213076606152486601358254360344577535013270725585993063640121216321838765269701152773772225571276011220873052048104030108906295790262886301034556051792622280009128834481995489480084608848461279790100815795616005581353007517789688976405810071620638897277298000648342613282137614006137160465788452230053693800231179016100594210482609380662005227031792887618750045156577171868811600411010279237128411003220407826202497460034125186959582459800371982513365800105003116778316226607580021756597916945073700224437622786910689002313725457157279510023709805285782593500240355125100189446002,
  361194119807849270403502938517146926603933413113999339334038313382624801342410372889238646463185903626176728572979855035232991126908947310342036664678513089603317478942033673009032147224650925958210311216647469737042603098607810625362232030783534025557058590296101489458038313802846544704960844399027347679566186815690262541986752592022502518182586620663100024127180685361976190238694726579951800002358068004674272632022378644111198301780212409325791954049802014951179143178447019904283642961497280195327264908388743701830547935149318200017170384656440995230169236933116545353901648633426108148406015248482013164694960141230926875843390501359067749101867307013274303317194135680121231493217754221201153393157450542380011223304022103072600108997874347767046601034886616483088552009129975657313316050084646448382448593900815913586163092443007521305361271599160071630562284574954200648607049895759139006137823247585147370053709356127965070600594550563028721892005227719696418202980045169338709011950400411031722197186139003220727840111520050034129279705118485800372023748185972396003116801565310672050021756380399938265600224428078788683652002313538484768653630023707075962612936500240322580644477309002,
  375399888959585430403637836221850457203934672485945083936038324938068589671060372993415576245877503627099243383923459035241012555692898100342105128530985866303318052333728417812032151935134496097210311254591301021393703010160358889622443029806707727912209300296277045502809193402847846613591027044027357126508579639160262609027859649679902518647652196695857024130332673042497960238903327337863277402359415294044439884022387131226573217980212461438214764647402015262865804119440019922430017684084030195430028436894533001831113563147879334017173408169525364750169393755308472108801649421961182259493015252322009306685750141249018943381652101359891535784246625013277924070830558580121246835593320071701154019059611870195011225758760524791260109090280640168014201035219926751707245009131125482116671770084684306251226616200816032281718655683007524840180634957920071640532835093367200648872562610605114006138488280883468630053724954591150845800594891353439735131005228408597965769410045182110756970030000411053169452370881003221047714817924900034133367833153866000372064898393402492003116824708074828920021756162109496569800224418537677321040002313351717590468620023704350615397165900240290088637525104002,
  390149737153924480403777789620220487603935978022971115016038336907631945359660373101240696870120303628053309995277352035249301787354296000342175822331485590803318643935024551324032156791386544753300311293678559905395803010468721936515303029830542283056367870296457466357074891502849183551236998795027366820039832669860262677765157123280602519124112203256610024133559370412905290239116706294553625202360792373886000498022395799277711142900212514620424108062002015580705220392689019940920343603935330195534659257991316401831689027332444594017176481908152821160169553060989856959101650222374827179483015256216898707888290141267355790589289101360725840535862663013281588310681452160121262350676777163701154651538916504857011228237468676687650109183521047622633401035556001670906868009132284009924353270084722423468318156600816151706062561407007528394222054173790071650550697654283900649139153993964734006139155569280319560053740595653570295900595232853744777536005229098496279619050045194893283366646500411074620949164922003221367449769361730034137451342967336300372105964094899173003116847744768939790021755943048725431400224408999467657982002313165155334383590023701629235551560200240257648952645025002,
  405463938611797640403922982938896644203937331369316802255038349305724003438790373212837951166248003629039974475367354035257867481379568380342248816362859425003319254304979387579032161797763496964080311333942487858983603010786118463258779029855055829493313380296642881603125328602850556422610720651027376766329517492130262748239715213843002519612233362792163024136862466250799960239334967626320115702362199869854135509022404651920037961050212568893179823807302015904811894839696019959760748631140080195641189161008811501832274487386572258017179606648123224650169714886569770467301651034831879103486015260167400216215560141285940432261784601361570784733394406013285296504912858630121278040194257249101155290656044397815011230740349342049040109277601990111155801035894860416590417009133451294501244550084760801439685635300816271862594870835007531967560664129740071660616021221801100649406826612529813006139825116365751740053756279347868501700595575063842890168005229789390105576010045207686255828939800411096076634153729003221687044415828280034141530233865155600372146945397316810003116870675642361810021755723220719733100224399464174435379002312978797712397810023698911814516738600240225261463556927002,
  421363501883728670404073606924948712203938734226059681098038362147240113318900373328335362137258003630060316468186910035266718568081781200342324183048361322903319884019217433793032166958747308464130311375417257011235603011112803477542571029880266983921904500296833424133857498902851966154801345309027386971694786785280262820493553195550702520112288344948589024140243685620770360239558217663613420702363638420035684195022413692878661929240212624277620756628802016235302328561221019978957462690660650195749650438963820901832870105395850104017182783176284780440169879268946652013501651859499257950422015264174241192228890141304775916487975001362426490996982244013289049126112952410121293905886815830701155936472151489122011233267606731740910109372529927617640801036236522268506635009134627389858950920084799441576557241500816392754725416876007535560271746621100071670728954901414500649675583032375103006140496925722939250053772005706501595900595917983629804435005230481278186005610045220489641987858100411117536454026060003222006498209665650034145604505180994900372187842407554137003116893500943948510021755502628563831600224389931812300390002312792644436851660023696198343757577800240192926044386713002,
  437870195675171230404229859069784500703940188353020155995038375447577729859950373447865162937760803631115450235247235035275864256780764960342401997014535797703320533670403468208032172278948946843090311418137995193119003011449038910723450029906194853317532830297029230233698850002853413697803839081027397442603739671120262894569660280203402520624555892444697024143704790612713920239786564933105378502365108675181752505022422925949620530910212680795271228409002016572295053406113019998516819297542290195860075895925670401833476045881054260017186012290677502880161004624551426249601552696545990994884015268238157598655120141323865324972572701363293083201236880013292846651327478830121309949510539100401156589048872707750011235819446491951630109468311360310793101036581006610621165009135812350256432160084838345295434497600816514385873804906007539172430730073370071680889647939058500649945425818938429006141171000928152940053787774761736720800596261612997948983005231174159259835010045233303409478448500411139000355574046003222325810605553080034149674156275799500372228655232552891003116916220922050200021755281275331594900224380402395806904002312606695220427190023693488814763128800240160642569664715002,
  455006575552693780404391943840508356603941695570727998735038389222652806788730373571563930853773103632206525728630929035285314044221445210342482335155880688203321203868728609268032177763111965411510311462140811626408103011795093798242649029932859047305298300297230439661417687502854900025059491914027408185678859954090262970512016916305602521149320949463370024147247581094314890231002012020052845102266611298944394569022432355001148134260212738468047612641002016915910664948130019101844525715446780185972498854479920501834092475831722234017189294800678347470161021585416770132201553546143236733952015272359894090716750141343211773361315001364170686486328500013296689562095416120121326172836651421901157248448324985070011238396075711960980109564952828725102201036928332931487969009137006230200633870084877514018099780200816636759469413358007542804113189259460071691098249720143100650216357537000718006141847345550734500053803586545651949700596605951836455981005231868032062570680045246127525940103700411160468285693298003222644981060502680034153739186537664700372269383979296628003116938835824514420021755059164086432100224370875939416035002312420949776149000023690783219046533900240128410914324050002,
  472796011560168770404560072918970704303943257762452584412038403488916707840430373699572725402544303633334729696153084035295077723237085390342565276701337542803321895242409720013032183416116172160310311507462823274851703012151244464545087029960279690831684190297437195734862775902856426134008573298027419207700528781840263048365616531555102521686874792609387024150873895477942830231025899651430078102268146968117438894022441983974964795760212797318265013128702017266271855957951019103874932177196810186086953163291718201834719564740146350017192631527148039530161038813330948852401554408464308992603015276540204107286940141362818411568811001365059427269158044013300578344484869530121342577651623455301157914733110282720011240997702931940580109662460913942604901037278520824621509009138209084447120230084916949171623864200816759878951394271007546455394845018230071701354909768604800650488380750666666006142525963153072310053819441090136255100596951000031168401005232562895326319150045258961959016849400411181940191382985003222964009033854720034157799595381706800372310028754809354003116961345898686470021754836297881334400224361352457496561002312235407817384390023688081548144941900240096230953699005002,
  491262716774926530404734465448755385003944876876298856672038418263373651360930373832037230674160603634501286819551356035305165391664255420342650903282658921403322608438202496515032189242981396211870311554142181873763003012517774712606349029988477437141506530297649645417674390202857993046655388153027430515610613212920263128176487727180002522237515164480572024154585611502218290231050330924994939002269716372881520572022451816887586498320212857368644048215402017623503450376262019105943566711152930186203473204769675201835357484635790038017196023302579603760161056312185571226801555283684701266617015280779849962864770141382688424109040601365959433254608872013304513489129190330121359165757280818401158587966318633026011243624538150774450109760842237774792801037631589988868752009139420968000704040084956652188373354700816883747768673768007550126351563965670071711659777745935500650761498023344709006143206857290575110053835338426889440400597296757464646370005233258747779804570045271806676357606200411203416019745936003223282893987272230034161855382249936500372350589666154369003116983751391410170021754612679758908700224351831964325461002312050069057844510023685383793619422000240064102563523447002,
  510431776834934420404915348290360518603946554927371084770038433563598704671830373969107902041054603635707460886659616035315587461516604340342739299004703846903323344121928602576032195248871354268780311602218101654875403012894976018178342029101747348106722830287867939408010987402859601810146000922027442116516132276990263209991716933241302522801546409902655024158384647028520530231075317615534578502271320217053392441022461857831657187190212918642317742217702017987732437795391019108051105725193340186322093902831697701836006410120133209017199470971248622290161074085924224252501556171982111307613015285079602940382130141402825030428565501366870833446880355013308495491263326420121375938970913358101159268211531193108011246276792833910410109860103462945064101037987560228781711009140641936116076650084996624506018115600817008369379952316007553817059358208160071722013003450226200651035711917727371006143890031511647920053851278587422099800597643224016174182005233955588148388680045284661645616456700411224895717988738003223601635384736240034165906546611136200372391066820432816003117006052549027840021754388312751410700224342314474088286002311864933211584670023682689947054883900240032025619929204002,
  530329180468933860405102956284835403203948294000006528287038449407756344895730374110940117364388303636954555998540647035326354668424638650342830550517713450303324102979017217619032201439097619586580311651730887783477203013283147728864724029104728957263773710288092232229335449202861253497358893488027454017693002080040263293859471533703002523379279614876659024162272960852694960231100871739676770402272959218339581682022472110977302924020212981162838525591802018359088008456484019110198236807911420186442850730773937101836666518401951226017202975389365232510161092138543101160401557073536465950808015289440243384851650141423231485242450101367793758160904269013312524850760403040121392899125385013501159955532823312585011248954679921235520109960251293271582001038346451454990037009141872044298437390085036867567538646300817133747253704950007557527594385052810071732414736815197200651311024995771756006144575489357665900053867261603055566700597990399561766799005234653415154089310045297526834452911200411246379233421785003223920232692540260034169953087960726100372431460324782725003117028249617381290021754163199880782700224332800000879763002311679999993004980023680000000059995700239999999999444487002,
  550981851062557220405297532526144963303950096250081195271038465814619603479660374257694332830453303638243917812583535035337478081348945630342924747091620514303324885715061377232032207819123696085370311702721965525376403013682597268141513029107794803101394730288322682323306919702862949207508835152027466226589861596300263379829023470630802523971032748290453024166252553532238780231127005560580090802274634108594464989022482580573508497350213044954185345408102018737701588768752019112385658899983070186565779719244041701837337989333031723017206537425227887120161110474091636203001557988529946188384015293862560797856010141443911078872926301368728339033843353013316602072168536240121410048069244268201160649994767614757011251658413834978620101006129247385040600938708283684574256009143111348304121650085077382821233422600817259884868181385007561258032946715540071742865127909236000651587439818679619006145263234362950750053883287504921864200598338283974177052005235352227515599680045310402210532171600411267866513459399003224238685379285440034173995005820641500372471770286377498003117050342841812110021753937344158685800224323288558704134002311495269116850920023677313944267099300239968025578992289002,
  572417679294476710405499328642541193003951963907389943015038482803589812145380374409536243553879603639576934822598113035348969112574479780343021980692447946403325693056389494168032214394569200267210311755233910161619103014093640344439902029110947175875870070288559452144824327302864690066764242896027478750831980774830263467950773336844202524577130806446072024170325468229240730231153731592709559202276345634082830952022493270949516843950213110040770887702302019123706877358497019114614082467946160186690917464320049601838021005444334703017210157959378890630161129096673146243101558917147012489628015298347353932889620141464867137590802801369674709036673787013320727664747877460121427387666835196601161351662437091402011254388210487639390101016323379123916700939073077041438898009144359904141228980085118171720726201400817386785711406041007565008451490028720071753364326934428700651864958946878017006145953270054745160053899356323963676500598686877122902057005236052023948307060045323287741525394800411289357505619916003224556992915875670034178032299739217700372511996812424833003117072332467162350021753710748586537900224313780161475684002311310740298214280023674631771332131900239936102235888844002,
  594665556877695120405708605087229751703953899278103236910038500394716968494180374566636949088061503640955039676966473035360839527993728320343122346060852461103326525750652455684032221171214153664570311809310477669226003014516601165410915029114188425644856540288802708259268936702866477228878316957027491598225252632350263558276274966447002525197905960454616024174493791569351420231181062606699175502278094555747004867022504186516251619650213176447448913384002019517239881654941019116884229680422600186818301135696038501838715751982600478017213837884761731980161148010445479215301559859574430371165015302895430891555160141486103023959640901370633002485850516013324902142507894790121444919798409108201162060601408211042011257144287289944230101026608207364107600939440851756686224009145617768070249790085159235724973277000817514453281177985007568778926606145730071763912484225594700652143584939999712006146645599953189000053915468090934297300599036178874190435005236752803164311820045336183395109958400411310852157525729003224875154775512140034182064969291044200372552140010165465003117094218737774870021753483416155543500224304274823019216002311126413252533310023671953472934537400239904229847842004002,
  617755411442241110405925631438628907003955904747302955950038518608720740058950374729173123987700303642379710535942173035373101457686802190343225940792871497703327384567426706524032228155003388626720311864996636186778403014951812657494778029117520963763538630289052621441994546102868311875834245635027504776760271049390263650858260533082402525833697706553204024178759654517073820231209011634302815102279881649478606152022515331767763274290213244199521709237202019918438955019474019119196834586814590186947968484975904801839422416947410206017217578106880229630161167219621669493301560816001296217065015307507609220621550141507622137182714901371603355055056853013329126024244883540121462646360236781001162776877764040419011259926863158825510101036984419108920600939811628168989723009146884996604690300085200576298270680000817642891085070543007572569535030243050071774509750249310700652423320356863212006147340227571293720053931622836397592400599386189091048809005237454563872446460045349089138969714000411332350416903409003225193170433688180034186093014076863900372592199986871962003117116001897493980021753255349846736700224294772557070472002310942287695593310023669279040777195800239872408292949753002,
  641718242596683890406150686710527357803957982781599704312038537467012126144450374897327193572161703643852472469218558035385767406806705270343332865422932762803328270298833734216032235352051070312980311922338598284062603015399616690920685029120947264416555420289309366780114607502870195218504775757027518294616496017990263745750666165780802526484853019398264024183125233267667940231237591973435051402281707706395018570022526711282699009330213313322747655872202020327444834427340019121552643298508070187079957854076605101840141191128705023017221379543959513880161186728470600290501561786619063354774015312184716009958290141529427913452799901372585903787039471013333399833579720950121480569264721318501163500558097380703011262736158525432550101047452705563144400940185426724968659009148161646511699400085242194910261378500817772102640431238007576380353641223940071785156275602944700652704167755453807006148037156414919370053947820590727972200599736907633249099005238157304778293900045362004940795249300411353852231583753003225511039368184560034190116433723425000372632176849847423003117137682189665860021753026552631003700224285273377276564002310758363343527390023666608466586331700239840637449698554002,
  666586159207008910406384059672456328203960135931834158462038556991715797314720375071287515042486803645374898894914799035398850266778235930343443223509187212303329183760176384722032242768645337819770311981383854055349603015860364310264542029124469866186512370289573123776636626802872128497326451585027532160166508093000263843008658092397202527151726508390158024187592750155955780231266817193303320002283573533120643127022538329725796950850213383843348914053302020744400678707284019123952414172610860187214308183741986801840872268144767286017225243127108854180161206541317673072601562771621568384380015316927587991336450141551523826304756201373580787105527316013337724098995850600121498690440511583501164231709513916166011265572395343164470101058013762151553800940562267979562158009149447774812691660085284093035942403900817902091474381196007580211459461418160071795852211013686400652986129692903708006148736389982749510053964061384110355100510008833435733513004238861024584206970045374930768284147200411375357549501868003225828761059064000034194135227883377800372672070706424454003117159259857139330021752797027469127000224275777297196530002310574639912816930023663941742111440100239808917196961884002,
  692392417932685060406626049180601637403962366835865060068038577205693133020670375251248564109400303646948613061163521035412363326819226490343557121721228007803330125790592446987032250411253067452160312042181205056462303016334415970695922029128091373659909580289844076456995269302874112982988831397027546381980353865140263942688659320894202527834680577085585024192164474582333970231296701139633069502285479952073013971022550191849404931160213455788019231301502021169452107348263019126396917998262640187351059022168662501841615844480669818017229169800486359240161226662545484118801563771205057766924015321737071638117240141573913386970967901374588144827236501013342099353877506620121517011832616246401164970399635376919011268435797095730420101068668288537471700940942172596403788009150743438783971550085326272155671942500818032861123814706007584062929656277140071806597707337566400653269208725472622006149437931766267610053980345246540136700510044046911662972004239565721989326790045387866589141249500411396866318697267003226146334988666350034198149396235141000372711881663963772003117180735142266220021752566777311816500224266284330301674002310391117120292040023661278859125204100239777247413998663002,
  719171463060986420406876964519591319003964678221446541466038598132565978435870375437411127294178103648575289571515278035426320285793046380343674669930259590903331097253725956564032258286524761223310312104780799106209503016822141780048563029131814459071340630281012241347803686802776149977138998676027560968829984306970264044848376868992902528534085585755557024196842723956298560231327257939987406602287427801753855482022562302495024244920213529183931870455902021602747239879908019128886938185545550187490250533745170401842372119527198613017233160521465565990161247096594508262901564785568214672015015326614023265829210141596600144739626901375608118173960905013346526136548179350121535535402518436901165716696602715744011271326588805237690101079416988641362100941325161348196502009152048695957355470085368733755176381400818164415135398579007587934841534075110071817392915558487100653553407408528412006150141785249732760053996672207823162200510079331176124145004240271395689601840045400812371078902700411418378487313898003226463760641603060034202158938482782900372751609829853278003117202108286901930021752335805099741700224256794489976110002310207794683132200023658619809423414200239745627980451725002,
  746958967681916420407137125755504558503967072909197549494038619796741142175950375629982500068551703650256655955408176035440735264401537010343795981301782610803332099038416679077032266401299563732060312169234165973227703017323921746851233029135641863986828570281040832823950880002778240813101688622027575929693787853760264149546829552760602529250320017146867024201629864657788240231358502009182866802289417937045157943022574666594878760860213604058747661883502022044436735835189019131423270957031900187631923507905825601843141295620253545017237216260803933540161267847963789886001565814912186087603015331559309133637180141619587687315919701376640849784749743013351004990309317680121554263128291012101166470669079297808011274244997040304410101090260570659464300941711255117087648009153363604120793900085411479325557332100818296757065571396007591827272545598620071828237986787243500653838728296527505006150847953910156160054013042297575703000510114686213807200004240978044377806290045413768081817214000411439894003600259003226781037504752720034206163854355892200372791255311506556003117223379532406040021752104113763569600224247307789517114002310024672318866720023655964584824891700239714058776346303002,
  775791876247440960407406864100458373203969553815666218042038642223435657210140375829176691004692103651994494284984267035455622817727773070343921172390862103803333132059408245324032274762610410645170312235594253969766903017840146034458818029139576401027184460281070201899810850202780386856615358358027591273761220141040264256844376344927602529983770645506528024206528313016666670231390448054802914202291451229510354075022587289173509772640213680440623181189402022494673835302567019134006725541997620187776119368100512501843923578080732297017241338002813264270161288921211641222001566859440610193771015336573805546715440141642879641186084201377686483728170919013355536463479273580121573197004712417301167232386254104874011277191249924198810101101199747082464900942100474895044317009154688221318991800085454510363298588800818429890480542692007595740300283842580071839133072260545600654125173942995571006151556441217277160054029455545224429000510150112009082260004241685666743559070045426733689084304100411461412815909429003227098165067255020034210164143609465200372830818216361986003117244549119642740021751871706223992800224237824242135653002309841749745375160023653313177171402900239682539682088472002,
  805708448560095010407686522289139565103972123956492123062038665438702827930330376035214632111170403653790642839571750035470997948138322050344050363240048173103334197258075422882032283377689312098500312303915467474467403018371215221427272029143620955632299580281100368898414803502782589506584536136027607010437532346500264366802745314025902530734832708929653024211540536310660790231423111082810821702293528567700677240022600175349396982150213758358219054178902022953614400076078019136638124373340700187922880180881955401844719175254903524017245526745532074370161310320956348070601567919359644003099015341658398959530570141666479671984391601378745165514663021013360121109432489760121592339043383176201168001917844952962011280165577143006760101112235234714208700942492841784228962009156022605854029130085497828370273055300818563818956291995007599674002483701530071850078323340045300654412746900508306006152267250633539800054045911980006395300510185608546000159004242394261473342350045439709160616570400411482934872699161003227415142820506810034214159806023774900372870298651881481003117265617288981540021751638585391769900224228343860956781002309659026680887930023650665578327588800239651070578463711002,
  836748305237471990407976454967660601803974786449669444294038689469459087002180376248324395535632503655646997819186412035486876118554911100344183677480020095903335295603171020058032292253972774399300312374253705406703303018917540568278661029147778487867294800281131354652089120102784850195848790335027623149348600123610264479485063155529602531503910085092258024216669053782081480231456506403263597902295650857466783980022613330336606006470213837840708390912502023421416955410960019139318303287233990188072248665111645401845528298555273588017249783500899923740161332051876882930401568994877991269187015346813986080035340141690391484863066001379817042108973737013364759486638928190121611691272842981901168779334101723722011283168209953823010101123367754690446700942888376997375074009157366816285979550085541434853749631800818698546078567846007603628457021656650071861073891511350300654701449720671854006152980385614069720054062411630969017400510221175808293112004243103827250520440045452694464158923400411504460122531935003227731970258155620034218150841404259100372909696725549237003117286584280297710021751404754167754800224218866659020098002309476502843986820023648021780180878800239619651346635316002,
  868952474700503850408277029095129308303977544518914140658038714343511686275320376468741416819852703657565515108440300035503273266105654920344321242433026502503336428091592929295032301399107363486940312446666400675446103019479544290805234029152052034271467760281163180514662099402787170391968665000027639700345855133040264594955885326296402532291415470430551024221916437673655640231490649636128658802297819022275724148022626759446462807430213918917785350635502023898242732392966019142048111725547440188224268201285824501846351162501952324017254109294933732950161354118713625677301570086206930665664015352041473974784430141714618824865129501380902261942687186013369452158703742060121631255738688397501169564705809609292011286199381192969120101134598032497618000943287101858163089009158720911433528260085585331326400048400818834075442886500007607603741915465510071872119928383044700654991284954103554006153695849606649910054078954526970052500510256813779375400004243814362755357670045465689567465035200411525988514075010003228048646876095490034222137249581392000372949012544870741003117307450332972980021751170215442930300224209392649280174002309294177953605110023645381774641418700239588281868142977002,
  902363441735097680408588624358335611103980401497138354289038740089587246843630376696708724898907503659548212092292606035520205816166345840344463189219196645803337595749171834700032310820955413735570312521212560626524803020057659840067691029156444709751019380281195868373949786502789551598028942283027656673511321281230264713281226794295702533097770562832618024227285314283817760231525556717204989902210003400353334783021640468089255474140214001619673839637702024384255710930531019144828412941080820188378982840983311201847187984764525385017258505167906109900161376526269091830801571193560344239380015357341780174984760141739165477300261001382000974926840683013374199694407198820121651034503691201301170358104292372100011289259325284240390101145926797991684300943689037801596959009160084950374590020085629519306305678000818970410654530833007611599935323848200071883216585685711200655282255150412905006154413646051698850054095540696677599000510292522442344139004244525866665038230045478694438297607900411547519996100522003228365172172461780034226119030410565100372988246217371580003117328215685896030021750934972098443900224199921844606998002309112051729028700023642745553641984400239556962024901256002,
  937025197678008620408911633599968453903983360830035330876038766737361193885390376932477179040002103661597169525102169035537690696802449820344609652865798791703338799631480112577032320527600885687490312597952808512084103020652332189241138029160959709516527120281229440664526796702791995353459585901027674079162757703960264834528593414972502533923406247904161024232778365041782620231561243904150508802210229676091222909021654461775963726200214085977136343605602024879622663376389019147660084205630370188536437316435935901848038986204434159017262972174525691970161399279408668464201572317154746136955015362715832783471460141764035268123592101383113332464628963013379002667744840280121671029647917318801171159601415617014011292348278247175710101157354785416981800944094206374380192009161458992446924610085674000316964283400819107555328548854007615617115546170570071894364015270939800655574362858181912006155133778382246110054112170168570068800510328301779979921004245238337653683330045491709044428598800411569054517485495003228681545647625410034230096183771974200373027397850596223003117348880577462910021750699027005639700224190454257786417002308930123889895910023640113109137913700239525691699198083002,
  972983292279665690409246463260791088803986426079778263626038794317488102838290377176305712923662203663714533454495117035555745353622873410344760772419524598503340040824662476175032330527355376479180312676949426007215503021264018127470816029165600311066186470281263920380788428202794503234874740673027691927858910680250264958767013946668302534768762788875920024238398327602766170231597727782617436902210460827268520020021668746120016601930214172021482896761702025384513198788886019150544017020936940188696677050223687501848904390917874030017267511384119541030161422383061357856701573457209311610064015368164570582631980141789232064317556101384239487464199730013383861657967897950121691243268846393701171969269590078786011295466477705356670101168882733425130900944502629235292803009162843097248752930085718775887296744000819245513089752377007619655361022128560071905562369110360100655867610624946300006155856250023910490054128842970936194000510364151774747578004245951774392371090045504733353639477700411590592027211943003228997766804188520034234068709570486300373066467552107090003117369445245577890021750462383026092300224180989901520528002308748394156198240023637484433107023000239494470773693335002,
  101028488729819230399593533836214710203989600928836557941038822861632984135460377428461586074709703665902517201594427035574387765056776440344916691061879976203341320446288923977032340828764286755150312758266396798970303021893186560900649029170369876215848880281299331090310360002797076856930164386027710230404876659740265086067072717277602535634290020220249024244147996963697670231635025272497482602210696953606458250021683326839078725330214259784580189433202025899099807840175019153481117332543960188859748165095468401849784426279212373017272123880817599660161445842220528934001574613945906299799015373688943143275790141814759774276723301385379594351537973013388777249623950120121711677481491976401172787181774922078011298614162894728830101180511385093964000944914328155567934009164237324639370700085763847551653706200819384287572715292007623714750331427150071916811799294631700656162000997176031006156581064394876570054145559131875012500510400072408796861004246666175549153810045517767333721467800411612132474366900003229313835146978740034238036607735537800373105455429483233003117389909927653850021750225043011638000224171528788428164002308566862248280710023634859517549527500239463299131417329002,
  104897881188053060399953280347723488603992889183913114591038852402503534488010377689220642856109003668163403399199171035593636458064993660345077556227764685603342639646230564380032351440613147963990312841969451273496003022540318821040413029175271853176898030281335696947512312102799717873199470056027728997857578575360265216500942954456002536520447545042138024250030226599782600231673153634278635702210938156754720400021698209756865587290214349298860816148802026423557908380669019156472305746604060189025697493917306301850679322984934021017276810763739231230161469661944676576801575787589115802670015379289910934459900141840622348195703501386533809083441698013393750032597831670121732334418522329001173613411481056220011301791574671954680101192241487946504100945329325019268957009165641734739761990085809216849822220100819523882421771951007627795362193460480071928112458032476000656457536520256162006157308224905872140054162318679295852600510436063663963139004247381539789077170045530810952475788900411633675808142474003229629750183044230034241999878220990500373144361590319288003117410274860612960021749987009804409800224162070931045276002308385527886842380023632238354487975900239432176655769355002,
  108911561978846540391032615282961928603896294780006349225038882973883383611860377958867579245762403670499546089552236035613510524298015260345243519727325777903343999607558908477032362371934114053210312928126112327969303023205908980644312029180309778683052730281373042707632340202710242797706957885026748241531357779400265350142420792382802537427704936317379024256047929622287840231712130475515505502211184540326529765021713400804988292310214440597332666287002026958065891668459019159518517749671680189194572589749377601851589315098119817017281573147181871360161493847358188872101576978366275521546015384968445434277550141866823778460106201387702289160588675013398780602152794720121753216230381876101174448032774463836011304998955522788570101204073793969977100945747641823666796009167056387933212260085854885327032333200819664301291015415007631897275466990340071939464497649687100656754219738467889006158037734960145810054179121640918350200510472125521768160004248097865774198450045543864177713904300411655221977835914003229945511421648500034245958521005044900373183186142224479003117430540280887200021749748286236869900224152616341825382002308204390792936600023629620935967160100239401103230516259002,
  113074764852899180391071261683156697103899821784600760073038914610666366009090378237696217621156503672913372883369792035634029636712684280345414737871171340603345401547469231650032373632012621632500313016805742334183903023890464177273949029185487280167182380281411393741018402302710520890265577532026767973003683849240265487066959967790702538356541942045912024262204079957912970231751973757415019402211436209934337169021728906024828194420214533713588459199002027502805169272255019162620703931520180189366421736053294601852514640093463037017286412160811803110161518403652122377101578186507500802855015390725529241615750141893368100040591501388885193640694686013403869558971918180121774325085413265501175291120279543303011308236549570480680101216009059634865300946169300679617349009168481344865919300085900854533963644800819805547844295580007636020569149822550071950868070588136300657052053194969487006158769597953444640054195968044272445300510508257963420749004248815152163605330045556926977257762400411676770932849672003230261118374265650034249912536090098300373221929192821425003117450706424418930021749508875131843000224143165033139992002308023450687971640023627007254054045300239370078739790967002,
  117392908045039870391111315393743662603810347440198997714037947348891848322760378526009789783886203675407387181857019035655214066660154730345591371599033671703346846718228622040032385230394222799990313108079591281557003024594504944724295029190808077989256090281450776047744042202710806242573677368026788204120984631780265627351707218458402539307448694391891024268501713550122680231792701801539410102211693273226114418021744731569441861000214628681815425837602028057960220656480019165779830211013750189541293957031090101853455538902829659017291328949857077470161543336084985444201579412245717361433015396562156188882690141920259390889988501390082683151762382013409017509199767690121795663169980061001176142749182464397011311504602584202940101228048045913978100946594323811938819009169916666447603050085947126026751746300819947625755217025007640165322378477210071962323329404782700657351039431776761006159503817273991150054212857916698368700510544460969817484004249533397613432930045569999318940016100411698322622691398003230576570554574460034253861923502628800373260590849744990003117470773526661600021749268779302546100224133717017278993002307842707293710940023624397300837697800239339103068091068002,
  121871600586743360391152826230095465503810725697773634657037981225781143710360378824121228462708503677984170463483362035677084701457997460345773586611973366803348336408149351363032397176891594928520313202020846127950703025318565552496431029196275987716580340281491216272555258202711099036471021535026808947004598948240265771075538397826102540280925922885947024274943929582840270231834333296628525202211955839922264494021760883705496862560214725536805139190002028623718641459053019168996878065085010189719239028097795001854412255961370050017296324675302609600161568649983529736201580655816691998956015402479331455732350141947501772343588501391294919905425630013414225064484317190121817232688590080601177002995234539769011314803361987508390101240191518301591200947022733559789880009171362413852116940085993701366994747200820090538707137151007644331614427867400071973830426770691700657651180989744736006160240396302462120054229791285346663000510580734521543480004250252600776884090045583081170604295800411719876996974046003230891867478454080034257806683293095100373299171220641331003117490741822580110021749028001552625100224124272306451117002307662160332273330023621791068429204600239308176100277342002,
  126516648828067630391195845719868956003811117400327120909037101627977504543240369132353467539387303680646384637329139035699663062459595330345961553508217591203349871942588213487032409481591731783070313298704681387120303026063194353501213029201894922457476480281532741720155565302711399458156901118026830214056854345580265918319095318953202541277485171760065024281533891726866650231876887305543318002212224021853157252021777368815238797220214824313963495230302029200271192469127019172272844760843760189900307486488641401855385039254184743017301400514087461020161594350743549940401581917459063613244015408478071683763910141975099409522533801392522067710383913013419492842019114720121839035864019346301177871934755608813011318133076866810220101252440246832597800947454552377047477009172818648518054240086040582121759654800820234290393163777007648519524710966110071985389515470036600657952480408548153006160979338411966100054246768177178187800510617078598873081004250972760304246230045596172500105424300411741434005415905003231207008663978200034261746815535799800373337670413166859003117510611546651750021748786544676184800224114830912784310002307481809526133940023619188548961595900239277297721572381002,
  131334063175749010391240427160091581603811523012064016801037105255057251295060369451039751249544103683396774464875500035722971323634406530346155447922728736103351454684972497606032422154863320472080313398208310982522303026828954140186220029207668895249606000281575380370836620102711707698289896831026852017967272425570266069164823342130102542297649021492619024288274829409438870231920383272332593002212497932997301123021794193398490036010214925049320846854602029787811849315349019175608743590863960181008455064200284401756374140363553548017306557659304333220161620443830691783701583197414374505155015414559405092225060142003056511740382801393764291985931514013424821464585711110121861074937436692101178749644637435837011321493997979889260101264795006101706100947889802832684898009174285432149356990086087769863588731400820378884516152947007652729132778476880071997000748399102300658254940226662618006161720646968020950054263788618964119900510653493181770575004251693874842909970045609273275309654800411762993597840619003231521993631410380034265682320328784100373376088534986986003117530382932866400021748544411457821800224105392848326197002307301654598123930023616589734589777800239246467817559118002,
  136330065054388700391286625676091472103811943012739776130037109007917054464390369780523952616966303686238170052151165035747032330672967420346355450670601761903353086037853275729032435207364308829050313500611041397725403027616422509279401029213602021504150810281619160896461775902712023952089813574026874371718904253880266223697009719982202543341951314640611024295170039107324290231964841029425063802212777689520160681021811364074680676930215027779542292754102030386537852873336019179005604111685110181027202058788531801757379814516731500017311797320401298220161646934781268448301584495927101983311015420724371594722210142031377332912854901395021759775580790013430211560596339600121883352168528992601179636202347123126011324886377764429680101277256575282667400948328507611150217009175762826715921500086135266170505840100820524324788706500007656960518318501910072008664278565305300658558562981345857006162464325328533110054280852637285976300510689978249890930004252415943037387790045622383464094913200411784555724177266003231836821903198600034269613197793706100373414425693775227003117550056214727510021748301604672656100224095958125044437002307121695271431180023613994617490448600239215686274179470002,
  141511094097884920391334498282328845703812377898165608460037112890790527232660361012116090138750703589173489414207513035771869620630903260346561747894391216803354767443986702877032448650049667932960313605994326154512103028426192235349490029219698521507102820281664112676810175502712348419441832042026897288594798443500266382001822714669602544410937386034844024302222885663855880232010280804948733802213063409813629950021828887584912156610215132541938123455802030996649760402689019182464472385568320181046277021184802601758402320634319195017317120723385780880161673829203085397301585813244690268513015426974022916933970142060066171970762801396294639760778639013435663764136857000121905869835627033901180531685930536845011328310470346576430101289825738147550700948770689512744587009177250894454204050086183072626022720100820670614933169475007661213761156207020072020380259086181600658863351208618503006163210376843775050054297960258535618900510726533782580516004253138963529331920045635503034351024700411806120334460369003232151493003970300034273539448075735200373452681997212095003117569631625252420021748058127086366300224086526754827201002306941931269600790023611403189862033600239184952977732890002,
  146883815578481510391384103945188053303812828180729204337037116908049431366480361047331672173560203592205741113941781035797507442126563600346774531215471211903356500387444043360032462494179354583280313714441821650224903029258871653385295029225962722978923030281710265816289070102712681305002922820026920782184604532470266544167351501690702545505164297419526024309436803630331720232056723230179762602213355214536172292021846770794054037930215239374474426794002031618351497422036019185986411225547210181065685320723252301759441921379212776017322529111030823280161701132776273772501587149617582702627015433309422715350030142089127373276175901397583102274719711013441178715009941610121928630235832033701181436174015748362011331766531549524030101302503283086039800949216371454000952009178749697867825240086231190819145205700820817758681627589007665488941253488620072032148843188406200659169307443245481006163958804856364050054315111508915271300510763159758877843004253862934957552120045648631953979955000411827687378829948003232466006460527000034277461071343417000373490857552984002003117589109396973090021747813981455215200224077098749483477002306762362316535150023608815443924601200239154267814874973002,
  152455128081040780391435503647791420903813294389931805310037121064208041970640361083736918002438403595338026977345089035823970776107302210346993997889534568903358286394751156591032476751326478667950313826039444386952003030115085050602957029232399063693877180281757651161022303602713022818310569793026944866391314332050266710283646875297702546625201076615652024316815298632190910232104189347122925702213653226653636644021865020692874432670215348315783854939102032251850410332990019189572500443816460181085432408431535901760498883206140804017328023743083645120161728851254132346701588505299254261993015439731646697033890142118565327041820601398887319316253438013446757058778551270121951635685142796501182349745816488612011335254818902127710101315290003124782400949665576468062932009180259299728173160086279622344379453900820965759775904468007669786138708634580072043970184206791700659476434218717099006164709612701240880054332306414437549900510799856157514274004254587855958034990045661770190896031200411849256807531577003232780361801839710034281378067788584400373528952468782383003117608489761936750021747569170526090300224067674120743610002306582988136494190023606231371919799800239123630672616080002,
  158232171430368130391488760456897804503813777072942113953037125363927645568980361121370804290769603598573544887304286035851285357199761520347220350966339572303360127036058189225032491433385680451320313940875429625476003030995473067691563029239012094160358900281806300316322898102713373173893849925026969555438143950830266880442762770524902547771628961289811024324361948760396610232152700616225785202213957571480761079021883644400204575800215459405176555253502032897357319801438019193223837103490620181105523818175769801761573476411791820017333605896476523340161756990463978173001589880546244378093015446241782740412430142148384469753709101310020746456388678012452399446809638270121974888518583498301183272481135616628011338775591647540600101328186695946750800950118327705063195009181779763075004370086328368801738030100821114621967558721007674105433755983100072055844435583280700659784734067230128006165462803705647740054349545000925455400510836622956914745004255313725163960410045674917713026180700411870828570916369003233094558559042780034285290437626216300373566966852302452003117627772951706380021747323697036526700224058252880259569002306403808454095980023603650966110773200239093041438319938002,
  164222334879686310391543939591950862303814276795167555529037129812021175457510361160273544607142503510191559165815518034879477695660048730347453799453816377803362023926340247545032506552581722995490314059040391498258803031900693109717344029245806480363574950281856245664558125902713732591386918711026994863875559332880267054738798617665902548945041647413801024332080405988474650232202278924228930002214268376723374670021902649165138070500215572682651267451902033555086574908288019196941535773791230181125965167820156801762665975185543241017339276865540029360161785556308006004601591275618190070860015452840931017116600142178589284597092401310154371338988538012458106536318134650121998391090332161901184204460368603449011342329110751881650101341194163910669100950574648432503290009183311151217047350086377431796746079400821264349017881195007678446906765588870072067771750865969400660094209519669151006166218381189108440054366827294012430100510873460135198551004256040541205720990045688074488310153800411892402619441058003233408596265429790034289198181094344500373604900811242322003117646959197361450021747077563714748100224048835039605469002306224822994317220023601074218782098600239062499999702266002,
  170433265568566540391601108496343669103814794140843414720037134413457988357030361200486627391764903510536756599322146034908575099939892230347694558486646495703363978726629829233032522121478304945430314180627384615739003032831419766904347029252787006571947490281907520383415226602714101295644949470026102080658844804910257233267942544451902550146045542497015024339974397615631780232252946592154319102214585772521308038021922042369265286280215688188906589118802034225256108077433019200726728788685530181146762160401338601763776657660792688017345037962218619580161814554764156521701592690777859392169015459530204114861190142209184301885684801310289624287446950012463878990411192590122022145773849739701185145764507028973011345915638912925130101354313214070454300951034562035632336009184853527732600730086426812940447367200821414944697891769007682810638242877480072079752283708090500660404863105588026006166976348463406300054384153319142362600510910367670180028004256768302710940180045701240484700767800411913978903668042003233722474456447750034293101298453932300373642754453302067003117666048729498480021746830773279690200224039420610277883002306046031482492850023598501122239704300239032006244829394002,
  176872877258918740391660336910968645803815329713640389295037139173368786535590361242052855050570903510893297152765735034938605699885501320347942849499433171003365993145281826470032538152987099130970314305731967201657203033788345245520677029259958578208660580281960158464576469302714479516862577750026104739880344028440257416128515442098502551375260023679193024348047727736403950232304726383434093902214909891492023591021941831528943438540215805965352412027702034908087490792281019204580566509029450181167920585317710401764905805966901543017350890516288622060161843991886993456501594126291185185565015466310727161379030142240174099494184301310426523182010717012469717478132687080122046154962009843901186096475142092859011349535440568815210101367544658194691200951498092017826331009186406956470131880086476513849410253100821566412788336254007687196708828299840072091786187867020400660716697353190712006167736708832563480054401523101569615400510947345539369286004257497008304488860045714415670164106100411935557374265341003234036192669692150034296999789988755100373680527886182427003117685041778231630021746583328441034600224030009603696268002305867433644317100023595931668810799900239001560062116886002,
  183549359357884110391721696950123617703815884137291116515037144097050689671450361285016384207163403511261541995895837034969598470586144500348198900404582301503368068939271922201032554660377022508190314434452265793614303034772179809101074029267326224789784470282014194732812183702714867490694901465026107465609638192810257603421015911735502552633317700771771024356304278737314420232357641512182227102215240868774977420021962024297602894720215926054121531767202035603805990111251019208504217588259890181189446319533872101766053706281757242017356835875578638200161873873808589746601595582427299164391015473183637949422640142271563303294170601310565086076590714012475622674507992120122070421067229162801187056674468140955011353188781906812860101380889312786161200951965262000967773009187971501548876020086526536145733695900821718757079683169007691605199296991550072103873617203278000661029714789313016006168499465592820200054418936666359058300510984393719972988004258226656608504510045727600012679765700411957137982006717003234349750444901810034300893656005295300373718221217584029003117703938573193460021746335231899244800224020602031203372002305689029205843190023593365850843809700238971161340328214002,
  190471186236758750391785263179847078003816458056236245182037149189972460859120361329422767145676803511641863426757589034100158325688997410338462945775017363603370207915529228252032571657283743125340314566889041546022403035783652230242879029274895102930452360282069664865500723702715265458381089903026110259439996278060257795248166107434902553920864684335550024364748012820976640232411715651611208702215578842076723468021982628468090219630216048498081432878802036312640625992584019212498869241670990181211345328800341501767220648884958439017362875406192381430161904206739422714801597059458566309390015480150087062831250142303356587593337001310705331200210820012481595260589013800122094946521598503401188026445286204571011356875930872061600101394347999101383100952436095725825180009189547227359431440086576881457053182500821871981372120340007696036190558423170072116014725679522100661343917939403712006169264622032614230054436394038386102700511021512188895050004258957246242409420045740793480241077100411978720677771654003234663147323953880034304782896832629000373755834555206479003117722739343535340021746086486345592100224011197904065626002305510817893483960023590803660708291600238940809968573374002,
  197647126855342170391851112698757732203817052136290641694037154457779891270860361375318994478472403512034645203012710034103459079860500620338735227031853915003372411932304026106032589157719429883940314703145758173153703036823510253215288029282670499420576340282126605412584325302715673666870653442026113123001150285690257991714958492858502555238560858886432024373382973558130480232466972942596230502215923951716771715021100365197504850310206173340846252131202037034824229438376019216565727519326220181233623668888750301768406928211631975017369010492733972660161934996969278420501598557660619589218015487211238003674070142335558675578093401310847276958466814012487635923499496670122119733777014499601189005871007554885011360597157176385360101407921543170209300952910617052432645009191134198564356100086627551416546583600822026089475551475007700489763656053100072128209667359550900661659309327506208006170032181432559880054453895242336725000511058700922737394004259688775822927490045753996040855321200412000305412545363003234976382850858200034308667512822310200373793368006747012003117741444317928270021745837094462187100224001797233473513002305332799434012220023588245090794869200238910505836307528002,
  205086254701414590391919325221475917403817667065330337663037159906301348134740361422753539073668403512440282882777154034106865275640372950339015992637163631003374682900571503326032607176082751070530314843328651571359703037892521067631672029290657834371654800282185053816970214002716092368952429974026116057960089997190258192928703528769202556587080161320125024382213287468086260232523438002389248502216276340674212188021102510289733552800206300626788922187002037770593501469594019220706017582645410181256287486842669501769612842906887273017375242538535724220161966250868165213901510007731239500613014494368267320483540142368174339759589901310990941934995179012493745356480593580122144785305311963801189995035657271029011364352732307107230101421610775815439700953388849960469804009192732480098760990086678547662940003900822181085209592602007704965999766978630072140458596407298600661975891476239671006170802147065428270054471440302707513900511095959897800702004260421243964102930045767207662543962700412021892137418879003235289456571752780034312547504348261800373830821679899943003117760053724563460021745587058922015000223992400030541986002305154973554560630023585690133515166000238880248833329703002,
  212797958055326000391989983164706551303818303554000842142037165541553490801820361471776401278278903512859184175238194034110380173845020520339305498291959994203377022785472389560032625727169127711290314987546801159948203038991471793435015029298862664436217710282245048435386340302716521823386342173026119066021874169370258398999078308703602557967110864651382024391243165628065140232581135933485429202216636154635116783021104698946048032850206430401053498429902038520189072942040019224920983984715850181279343022244257401770838695880914572017381572965888431390161997974887236628001510161869616697105014501622364737574650142401208402423140801311136344892951953012499924258936707900122170103598396925301190994023877823327011368142929535899520101435416532672483500953870818549641608009194342137170904260086729871840513568200822336972403568343007709464980201583740072152761667085834000662293666906780796006171574522196126730054489029243805705900511133289090085126004261154649277317500045780428313342857700412043480803589023003235602368034898120034316422871806663600373868195682355369003117778567791152840021745336382388962300223983006306310829002304977339982622570023583138781301721500238850038849781422002,
  220791950589986980392063171736065723403818962336447460291037171369747159818220361522439155473816703513291769301320815034114007132776899880339604007139541386603379433607791421603032644826181247959300315135912202981166903040121169977454105029307290686101509910282306628559701323502716962295037982183026122148930458488430258610038176160466802559379355867159481024400476905311917790232640092332644270302217003542040730082021106932003917867480206562709567671119902039283855565213917019229211890954364910181302796608496882901772084794364733867017388003216274190080162030175559723611701510318209758400551014508974733285460930142434665736081070201311283504776501376012506173336481599020122195691168380288801192002920932669015011371968023927652570101449339654209040700954356547040058221009195963235262781660086781525599107143000822493754896508139007713986786403184290072165119033756342100662612638138844959006172349310081677780054506662089749207700511170688475291049004261888990371308940045793657961302478600412065071362358432003235915116790672490034320293615615838000373905490121798289003117796986744929930021745085067517850000223973616071745057002304799898446051520023580591026607935600238819875776145381002,
  229078282316892300392138979025735677603819644171068280739037177397293444066590361574794998002302103513738471364681883034117749611037593080339911789974331429203381917445474596234032664488739848917100315288539844601101703041282444101796869029315947739059053830282369834438718562802717414055016082049026125308469540616590258826160557232096302560824532987042489024409918891658753620232700333300068231902217378654136463010021109210315982812830206697599055465940402040061841651678050019233580022684053780181326654674123968501773351449966602978017394534750601782500162062859501876290901510476780570478146014516426589432391120142468551263929069601311432440712315015012512493300984772030122221550547712205101193021812709865132011375828292349378920101463380985744838800954846059772615396009197595840130719350086833510594126068400822651436537142470007718531499947677720072177530850877143900662932807690668177006173126513971200750054524338864466666100511208158028819841004262624265852188770045806896574488144700412086663765135625003236227702391566400034324159736216145500373942705105907742003117815310812650200021744833116954463300223964229337735284002304622648673062330023578046861907982500238789759503244127002,
  237667350889088390392217496101035072503820349841290509526037183630809931158710361628898796501434703514199736733315595034121611170419090490331022912545635849803284476435186178642032684730894772358360315445547781853482703042476144104345590029324839809651738910282434707300454360702717877380812927367026128546463422655160259047483300079905902562303375262672406024419573599371952630232761885448741127002217761645021699948021111534750310314450206835117050134997902040854400120167087019238026683621623230181350923744084138501774638978729088816017401169049444635900162096033413915237401510637611303449290014523979163216987130142502869960305985601311583172011080630012518884870618125550122247684289317059301194050785725692875011379724013479135910101477541377471381700955339381209374429009199240017805961970086885828486546797600822810021183898773007723099202543184310072189997273002667300663254178078988438006173906137105890360054542059591697496100511245697725774597004263360474323459390045820144120980224300412108257963434959003236540124392177610034328021234069866400373979840742355732003117833540220592080021744580533335582700223954846115098152002304445590392230410023575506279696755900238759689922238751002,
  246569913272371130392298817103994372403821080156370851094037190077127146432550361684807140688967903514676025432063199034125595478875382050331055630033152116403287112773906470456032705569136301037800315607057217469974803043703141911632369029333973034400145300282501289374910377502718352556447774679026131864777891370130259274126054277864702563816631258555431024429445594449104350232824775913929016502218152671700432874021113906190657089010206975311907241246302041661787936245054019242553198765946680181375610441102954701775947701186810419017407907613281385750162129704080992392901510800731556156728014531633698382007940142537626851157112601311735718169021470012525348769902880430122274094966729152301195089927128298138011383655467814976180101491821684471743100955836535933942541009200895834595261860086938480942922491100822969512704897397007727689976029692410072202518454782455100663576751819027362006174688182718997960054559824294991931700511283307540960866004264097614386032100045833400568874349800412129853908876692003236852382349206010034331878109661103100374016897138806373003117851675194557000021744327319289014700223945466414576642002304268723332492830023572969272489780900238729666924627551002,
  255797097796321220392383039352028631103821835952220656213037196743295186042770361742578394637285103515167811546326801034129706313576496440331089360965778921903289828720571358467032727020406782396210315773192581641173603044964331984373432029343353703609831660282569623917350784602718839872613332966026135265321116522560259506211094067149802565365065377097295024439539535943391420232889032362846252302218551894132734910021116325536734832210207118232817938866002042484266307395923019247160913966538100181400721487021344001777277942424860921017414751962739074580162163878374161690801510966171279471784014539391452509247560142572827014501034901311890098869425582012531885729756780170122300785174229035901196139324701345543011387622937683925790101506222766740394800956337548651853021009202563357081465830086991469635388579600823129914977947354007732303902378694060072215094550960146300663900531424471789006175472654035810870054577632997711061500511320987448887420004264835684638244960045846665886281644000412151451553186979003237164475821448560034335730363495653200374053874402914815003117869715959870830021744073477433620900223936090246840479002304092047223148000023570435832823165600238699690402244753002,
  265360416597143880392470263441802833103822618092256576357037203636590549790550361802272750580346803515675583637295220034133947564047191150331124135703749395903292626597754692034032749102112546641510315944081614553671203046260631875950626029352988265061360180282639755232094761502719339626825371715026138750044567657430259743863373065404302566949458176279017024449860177756957230232954683004489305502218959475287086721021118793704480115870207263929822452401002043322100748121332019251851196227159330181426263704160982001778630032137915706017421703638839007340162198563251359530201511133960780033937014547253697155567740142608475580899992001312046333984185688012538496487541569710122327757526980542201197199066867687584011391626707250988380101520745489203067000956842444190946083009204242652124101870087044796241668298700823291231890542155007736941063692831100072227725716372482700664225519407455701006176259554273634030054595485723026907000511358737423767004004265574683675880260045859940041328937300412173050848197917003237476404369793910034339577996100918600374090772642326471003117887662741383830021743819010379352900223926717622486552002303915561793856280023567905953253512600238669760247259211002,
  275271778464650990392560593356387682003823427468277487735037210764523179501310361863952284296317703516199845168997980034138323235392548140331159985485586514103295508793394562290032771832136126337560316119855450949438003047592982804132125029362883327784860680282711728696835181602719852123575518386026142320943949708040259987210580055033602568570606693344700024460412370466785930233021756599641043602219375581193567616021121311626328531380207412453823757100302044175561145957843019256625434013472820181452244016706742601780004304690030661017428764203245278680162233765758395063701511304130724024954014555221717990072780142644577733933780101312204443575349080012545181787110743960122355014661168437801198269242693047475011395667062528170290101535390721736633100957351247501748832009205933786859962900087098462445078137500823453467339855228007741601542205528630072240412105948282100664551718278541633006177048886641769600054613382493922446800511396557439517082004266314610092181990045873223002158963400412194651745847491003237788167557217470034343421008025782400374127591964675936003117905515763471680021743563920727276400223917348552039194002303739266774639830023565379626357861200238639876352173086002,
  285543502106089960392654136575806673503824265001368467545037218134843708916020361927681012110361303516741114947511989034142837451612790490331196942452597595903298477762564581632032795228848784810010316300648706754993203048962350236332636029373045665920983960282785590787494516302720377674487310171026145980060157782260251023638319587127002470229324774612516024471201063183675630233090282471048359902219800380997926324021123880251493147200207563856601463686802045044921828427704019261485037564801500181478669452106489901781401099175144408017435935238516020220162269493029950535601511476712140978084014563296814932449860142681138710677312201312364447896678145012551942378857582560122382559234136810201199349941889716588011399744291383538870101550159339189046700957863983657856337009207636828703691360087152469934533269200823616625232735564007746285420280634200072253153874707448300664879130546702727006177840654341497960054631323333191690700511434447469760588004267055462477874290045886514736930582300412216254198179682003238099764948776060034347259399840510500374164332477586218003117923275250036080021743308211069604900223907983045950675002303563161895883050023562856844733610500238610038609820603002,
  296188329839900690392751004191078139703825131642832628653037225755550931224370361993524949563212703517299927572653185034147494459009686320331235039674026081603210153602929128411031819311123360805000316486599567828424903050369724488716816029383482222670107050282861389103629163202720916598475564561026149729480251497420251049151455140941302471926443411513298024482231305444822320233160290513775729002220234047016543148021126500546247333460207718190825909777102045930461630932682019266431439210021360181505547142488302401782820759478283038017443218348357364440162305752290591607101511651736427622126014571480302292450900142718163802181670901312526367395221096012558779019763452530122410393924528058301110044125482026641010403858683550300340101565052221399286900958380677856311589009209351845348360060087206820404552903300823780709485702971007750992780412048870072265951177759939100665207758719304146006178634860566058340054649308263439719900511472407487826663004267797239421176850045899815213818984300412237858157344379003238411196111602870034351093172136635100374200994288667627003117940941424505180021743051883989729300223898621114601420002303387246888332480023560337600998460900238580246913366721002,
  307219441732926480392851311021859420203826028375151644433037233634899490564750362061552171792648603517876833902496268034152298629686988640331274311172877653603210468618841880793031844098347437119860316677849880874405303051816121339462253029394200114331748500282939172394393905702721469221909137701026153571338449253670251075274088677338502473662811082972469024493508249140640660233231811205737805002220676754792298873021129173494212030040207875510072461395002046832463965605625019271466093687666620181532884326095468201784263634337483722017450615157880184610162342550855787908001511829235351761303014579773508910569580142755658353958908001312690222712893434012565692473446404160122438521432422644601110154327250127575010408010530635908130101580070253217366300958901355417987064009211078904766055120087261515555265651800823945724024943548007755723705223366550072278804170304780900665537605302085459006179431508500630560054667337307082756600511510437466751442004268539939507825310045913124401015917600412259463575597467003238722460614902320034354922325526855300374237577505517098003117958514509834600021742794942062249300223889262768300539002303211521483097470023557821887790335600238550501156305900002,
  318650470194936230392955175737802826303826956212975813621037241781407803948150362131832875675825703518472401531071795034157254465147387990331314791952437891603210793090752202753031869610436840930210316874545246577034103053302582656496265029405206634436109930283018990585077947002722035878777136349026157507817142813570251102020141158523802475439294104241321024505037150476339880233304875618413656302221128683151362785021131900096647509100208035868836026885402047751216891129644019276590478470269350181560688348739289401785730077406436919017458127313859601580162379896132943731701512009241056190510014588177778299869620142793627766470403101312856034688069742012572683510210032410122466944479479443001110265608660707067010412200126131193810101595214324524336700959426041787964586009212818075208454260087316557092414790900824111672786304644007760478277467500610072291713007629034100665868672799141984006180230601322315140054685410486348229300511548537379278790004269283561321086170045926442266729865100412281070405300782003239033558029944910034358746860644920100374274082235716975003117975994728507820021742537387852998600223879908017286060002303035985411649920023555309697767319200238520801232460801002,
  330495515044809210393062720983736926803827916204144545993037250203866220287290362204439443782149703519087215279601242034162366599988550010331356518023499374703211127292886934998031895867849483880780317076835115002684703054830177040035503029416509257969771030283100894804224661302722616910858654397026161541147932596420251129403836647806402477256776982296851024516823371968882390233379515427745747902221590014260914667021134681372749705600208199322545786455802048687013183538954019281806094093003130181588966665270007201787220447317858817017465756484997314260162417795622439140101512191786062646718014596694468789017780142832077495618927301313023824357186162012579752907092631770122495665809076825101110377978947348063010416427765419525070101610485330252362600959954762535916857009214569425207406250087371946727363521100824278559715290166007765256580026319270072304677845106802900666200963712907144006181032142200115000054703527823274826900511586707197861069004270028103441775770045939768779186291400412302678598922160003239344487930062340034362566778145533300374310508586834549003117993382302536870021742279223919081600223870556871725380002302860638405824740023552801023607583100238491147035981048002]

/-- Rows from 1300 on. -/
def besselRows13 : List Nat := [
  342769159063129870393174073508789658203828909430738170046037258911345423370780362279446510187472303519721877701639476034167639805700856770331399526432316384303211471507143640892031922891599550095690317284872883325609903056400000480260537029428115645697577190283184937411347172102723212667896104276026165673612684077080251157439708579401002479116162777923725024528872384479910720233455762925226585202222060933687814785021137518359951178110208365927580140231002049640150408013117019287114464486675440181617726841066010501788735107747601098017473504362186758230162456256918681390601512376903275796574014605324953666499470142871013053244387701313193612956353434012586901447916627170122524688186454399801110491447410160809010420693745785989760101625884170404802700960487543356487666009216333023575507190087427686177100105600824446388767055387007770058695910269920072317698838198203200666534480544134009006181836134294916970054721689339712565000511624946894659882004270773564448277270045953103906627815700412324288109035401003239655249890641630034366382078704238700374346856666420774003118010677453463130021742020452808895600223861209341715591002302685480197819670023550295858009327300238461538461341954002,
  355486484046390710393289364299573335703829937010161992581037267913205085826100362356931028201836203520377009602503481034173078994569545400331443855289305912503211826023297192208031950703272040481870317498815995930318703058013177030464904029440033648582793510283271172025252248502723823507772215311026169907544605697580251186142606150930702481018373474597296024541189769285242970233533651029175992202222541630458236449021140412114226768620208535741281877667602050610930991677783019292517137315119460181646976553541522501790274427479504040017481372658781131690162495287711166942201512564625987260560014614070621326038440142910440007623280401313365421922980685012594129923338290890122554014398855434301110606023416161282010424998366426604160101641411750076324500961024410069673131009218108939406677530087483777164243064500824615163906401862007774884708258010150072330776142448364400666869225791877619006182642580759472600054739895057322852500511663256441546839004271519942916557560045966447617314422600412345898888320298003239965843489120970034370192763017316200374383126582009493003118027880402357880021741761077062168500223851865437283837002302510510520195980023547794193690704400238431975403343283002,
  368663087378468160393408728717555099803831000096263564856037277219102781299880362436972340064401903521053250573376423034178689223683999140331489543798514076103212191139211700741031979325037681897030317718826046945851703059670859496025944029452271312307661490283359653552985108602724449796690772715026174245329348708400251215527700840930402482964350354286574024553781220181555380233613213296212126902223032297118275431021143363710404027710208708821973571494802051599662297424458019298015684317041790181676723593672998001791838780471002175017489363110864313740162534895785553982501512754987879673912014622932875413226900142950363983971883901313539272897409952012601439130897743290122583647255669981301110721716399651130010429341928457548720101657068979473069800961565388621202329009219897242076735250087540221417046237400824784889107772214007779734700336032060072343909913486410800667205201953476731006183451484738380200054758144997578565400511701635810104328004272267237420185210045979799879523689000412367510889562641003240276268304983600034373998831801671400374419318441116683003118044991369822950021741501099209978900223842525168387675002302335729105877790023545296023389757400238402457757107961002,
  382315099135507450393532306640740076403832099880484138487037286839003162299930362519652248660648403521751259540486300034184475699057026370331536632287867564503212567161057928421031100877966820993290307945068885268705103061374230139553134029464836881896523640283450438219408144702725091909361171850026178689406129357700251245610493053637802484955054380300837024566652545630886900233694483932919334502223533129795551547021146374242478473570208885228973199161302052606656698763015019303611701652377840181706975867544413901793428545919489627017497477477524700130162575089024745699201512948023030784792014631913134973375630142990790664953217801313715187724561509012608829875069242880122613589588578682901110838535862599004010433724734924429170101672856773932833800962110505082918509009221698001243971230087597020669403875000824955568355244863007784608755538290150072357100307024448100667542411524536207006184262849368066590054776439181764112900511740084971626252004273015446530347520045993160661550953100412389124065654204003240586523919753430034377800285794744000374455432351239470003118062010575991450021741240521774793700223833188544915437002302161135688153170023542801339864350100238372985418080902002,
  396459199740819600393660242609798010303833237593045321129037296783187411326160362605055091318317503522471715329768170034190443779857018280331585162240230149503212954403536311441031103909055203426370308177714722131569203063124501402573004029477738806443724780283543583597426643702725750229186863806026183242268873853740251276406818893380602486991466587300008024579809670943573290233777497807715870502224044328261816672021149444823933752720209065022609994658602053632231655717844019309306810253200470181737741397911640301795044108329451669017505717541131973800162615875409984229301513143765917589519014641012834600579260143031725791187716601313893188455589827012616302967311754820122643844251697233801110956491375023323010438147090811560750101688776053945275800962659785653159590009223511286849718350087654176660855559500825127205642528380007789506957385817640072370347478856543100667880856998908730006185076677776768680054794777630975509300511778603897118812004273764568815867310046006529931709540300412410738369592745003240896609916989780034381597125754384400374491468419855249003118078938240528410021740979347270494100223823855576686610002301986730000673860023540310135892103800238343558282027748002,
  411112638186945030393792685978768447403834414504171973023037307062262973166640362693267815740390103523215317247431667034196598982755974070331635176325284920203213353190105738089031107028171029577910308416938241277591303064922916644125730029490985743948572310283639148638875112102726425148457771199026187906467386551550251307932857071033802489074588478601152024593258640500296100233862290462924929802224566095996586068021152576588066779270209248264240534440002054676709791785298019315102656179256730181769028325786207901796685857580373728017514085107616868980162657263021955583401513342251420505882014650233424588030560143073175161767802401314073297349550840012623859226119820400122674414121721600301111075592575376649010442609303051281480101704827745172175300963213256657139522009225337169118924770087711691136591255200825299804972956215007794429389526356920072383651584857723200668220540868677234006185892973084515580054813160366120451700511817192557301254004274514602843220930046019907658330954500412432353754482021003241206525882281440034385389352458764400374527426754420834003118095774582631410021740717578202404000223814526273452132002301812511777454950023537822404270328500238314176245033603002,
  426293250842477120393929791070482811603835631925352411320037317687173576401600362784380058134451003523982785676863059034202946986396424750331686718432263191703213763853218221472031110237781332478500308662918711799617303066770750896645021029504586566259622200283737193706077666402727117068546751420026192684608541788130251340205135944847702491205442430901621024607005620013861710233948898127051923402225098640251806022021155770688317915270209435016265059771902055740418971960382019321000910978161460181800844912038536001798354188995431584017522582006753916690162699260041905431601513543514827584094014659576371079567070143115144634776182301314255536875079752012631499477074703620122705302098073869101111195849170931306010447111680533291520101721012778467713300963770944547329150009227175718560722590087769565847456159100825473370359480908007799376135733974440072397012780982949800668561465624137083006186711738403110410054831587407918401900511855850922606667004275265547176555110046033293809765084700412453970173531765003241516271403243150034389176966706264400374563307462371759003118112519821031450021740455217067320800223805200644894792002301638480752875680023535338137815954900238284839203501862002,
  442019480861846200394071717336846490103836891210637023979037328669209552436210362878484223599938903524774862692306311034209493635980400750331739833703541800903214186734559613837031113540419750995990308915840103706767503068669311639512235029518550364130691200283837780604096717402727826400110189964026197579357499834160251373240540698196302493385072106553841024621056898831395490234037357727271496102225642172117575937021159028298606269160209625342144039364602056823692381850920019327003272050322210181833199539020937001710004950341097358016531210092447228150162741874752765969601513747591838756032014669043156222471180143157640127808048501314439929712080065012639224552895833850122736511103048817101111317270938166656010451654534114012770101737332089898773000964332875903836998009229027005968994700087827802549955572600825647905824668315007804347279908681650072410431223266106500668903633753778097006187532976836113310054850058776900661600511894578963182699004276017400377703900046046688354380391100412475587580057694003241825846069508660034392959969315368500374599110651121141003118129174173993380021740192266353542800223795878700629550002301464636661679280023532857329365476200238255547054152961002,
  458310398216756920394218629524127636503838193757976422660037340020018460565420362975675568836048503525592312689775650034216244947983632960331794568569130811103214622185296510788031116938688258779930309175891206280683203070619939590675531029532886452390954230283940972613683997902728553563292804652026202593438947416670251407056320656725802495614542873522499024635418892277622580234127706902127549802226196906588939065021162350613670184600209819306414975173702057926868607889842019333111463018641600181866100712210608201710177220724680099016539971243019328480162785115540293923101513954518570123090014678635278321523450143200667618497093801314626498753423540012647035293492535940122768044081961176201111439867723157673010456238176625977360101753786620765286700964899077434790260009230891102422942090087886403006259693900825823415400691802007809342906076050460072423907067818978500669247047744266866006188356691478822270054868574493410441800511933376648892344004276770161006205840046060091260564106600412497205927481496003242135249472726990034396738361124571100374634836428059065003118145737859316670021739928728540898800223786560450203904002301290979238973170023530379971774874600238226299694023178002,
  475185720368546440394370697843404011603839541010600297481037351751616027835430363076052287234783303526435923035665808034223207114998279210331850970782074312803215070566329498114031120435258936261190309443265749286100303072624009516736487029547604375231596170284046834524948490602729298987936744964026207729638363282480251441670096747451302497894942233157822024650098144039927280234219984014449658602226763062633758983021165738849412995060201001697470945495001959050291718661779019339327234103061450181899557061872776101710352271257725795016548867361503088340162828990894219790201514164331558282823014688354251994338910143244233145045471501314815267106661410012654932546016059720122799904003293593301111563649441965131010460862922887245580101770377317620609100965469575976716176009232768079287649620087945368984208441000825999903129326391007814363098386833550072437440470830252600669591710080429311006189182885418257350054887134577602965500511972243949314739004277523827619321060046073502496722447800412518825169330831003242444481206556630034400512142992260900374670484900551696003118162211094336060021739664606100777700223777245903098237002301117508220228760023527906057919559500238197097020463429002,
  492665833601342520394528098146323679003840934458438171592037363876397412715550363179715596425718503527306504733539035034230386510707551870331909089454787589503215532248552898154031124032875786734930309718162527101676403074682931061918174029562713911611533810284155432671756247902730063113795071937026212990803309278830251477099869102387402410022738025592302023665101328595867720234314228164489283202227340863261697571021169194243254115780201021841377045432001960194311347355926019345652362499994980181933577344744275101710530143720313360016557900375936751700162873509409408390701514377067764694652014698201608327957830143288342806757594701315006258095746500012662917164911894750122832093858845282801111688626081027119010465529089710841410101787105132291915500966044398494922264009234658008214648890088004702257316095300826177373061942500007819407941116574870072451031588564472600669937623245232631006190011561733141830054905739049445543700512011180833745897004278278398772048820046086922031280790100412540445259239313003242753540866660470034404281315796624400374706056175940392003118178594095922330021739399901496156700223767935068726136002300944223341282070023525435580694300700238167938931138054002,
  510771815036417640394691012106339304903842375639583281925037376407148801794780363286769828340171303528204893109576697034237789694995682580331968975096354279103216007613121174127031127734356597569690301000078552583763302976798149596328576029578225080784713980284266834966876863902730846390749705284026218379844747439860251513364024809366702410261299002521259023680435253683873120234410479203279331802227930535594311324021172718054485551950201042369146989239101961359282775361177019352088652766717070181968170445737747901710710880472439076016567072239662120380162918679787030861601514592764580085019014708178895036736550143333002764577924501315199495262766837012670990011972382120122864616663881387001111814807697552152010470236995914218390101803971021900636400966623572083878017009236560961142481190088064404604776024300826355829259499947007824477518665226410072464680577361050000670284789719767956006190842723493885610054924387928717649900512050187271199463004279033873017143310046100349832683866000412562066150946505003243062428050701060034408045880435548400374741550361540924003118194887080483020021739134617181628200223758627956434766002300771124338333260023522968533013169000238138825324023642002,
  529525455348849440394859627405581514403843866141800854727037389357059349049010363397322521865071303529131948517201424034245423419196785010332030679650808056203216497051722157608031131542594847624550301029134405350974602978971147083953752029594148147951643230284381110937892347002731649279033926391026223899738383570450251550481345812721002410505292808940487023696106862817838330234508777746220549602228532310936283103021176311564633900790201063287682644390001962545567017016769019358637937210759560182003345379666706301710894524461372561016576384931625905740162964510835748168301514811459828892256014718287676621527130143378219241632679001315395002369690332012679151956389625610122897475457283043801111942204419913650010474986962328751790101820975948882926500967207123967595237009238477010297258800088124477811465287000826535275792541655007829571915556757340072478387593633230900670633211983232640006191676373762567960054943081235011038300512089263230407538004279790248905132100046113785869395965200412583687798297910003243371142358334880034411805837826508200374776967564642660003118211090263962830021738868755603432300223749324575505191002300598210947947180023520504907809463700238109756097407813002,
  548949282208106680395034137927540236303845407604082071590037402739733467390550363511484518157862003530088557061382295034253294631486220820332094256536423578703217000966857265038031135460561661960270301059005287333883302981203442970811877029610493630037752510284498331763883720302732472249459526413026229553526037829290251588471016966517602410754837492228770023712123237846318140234609165186898249602229146424847805059021179976077827918660201084604002361114101963753530905532434019365302076284378180182039111292991658701711081119229096598016585840456684274130163011011472906187001515033191773751272014728529534530149660143423998523775503801315592803400120673012687403874808689900122930673301698125701112070826448045888010479779311809249660101838120881010140800967795081500009005009240406228193223030088184923667949173900826715716741187190007834691216438765330072492152793867073500670982892512912704006192512515592920090054961818987729798500512128408679821395004280547524984331370046127230109901119500412605310155244954003243679683391207760034415561188906468700374812307892507699003118227203861844580021738602319199479200223740024935152711002300425482907053020023518044698035655700238080731149888060002,
  569066584464976120395214743955729441503847001718245069569037416569203482593810363629370058696604103531075631343157098034261410482418218710332159760686042503303217519772128876586031139491307814983690301089713234024870602983496595093722270029627272301601364040284618570312911805102733315783648694076026235344317042832630251627352634243223802411010053539201161023728491601557118900234711683711133327602229773117218132419021183712921171746710201106325242805993901964983547180096131019372082958984149390182075477465587600401711270708919832283016595440845910642010163058190725742596901515257999120018971014738906067319189370143470346960137187101315792922561064994012695746651381108960122964213283692747301112200684053841547010484614369243499360101855406791409380000968387472165358968009242348687633304970088245743970485787100826897156195126464007839835506082087060072505976334620447100671333833784165444006193351152030308650054980601206090474200512167623587612277004281305699800864370046140682522703297900412626933175844963003243988050752949520034419311934631788200374847571452370185003118243228089149890021738335310399385200223730729044527218002300252939952945010023515587896663319200238051750380370571002,
  589901437107736650395401652378514039003848650230584342898037430859942659839380363751096886140381303532094111224909418034269778330613526480332227248588460449403218053892535050576031143637965783153120301121280854063451202985852200610136965029644495200873964440284741901180307977502734180374270732619026241275289669788510251667146213100480102411271063923870684023745219320327968990234816376311270756502230412632340322720021187523445123855970201128458660822217301966235994574178680019378982503255754200182112453312533001701711463338287649457016605188156906708970163106057732605474501515485921020339786014749418890817101630143517270963679368201315995384284712460012704181177818683660122998098513903417401112331787581550567010489492461561830870101872834658584025700968984323578569772009244304461709680560088306940521030491500827079598253613093007845004869380407520072519858372522005200671686038270401941006194192286111718920054999427909122154500512206907921672182004282064771898677470046154143076326595800412648556814261183003244296244049168950034423058075978113200374882758351435307003118259163160439610021738067731624494100223721436912713494002300080581823281810023513134496683068000238022813688069014002,
  611478727011321270395595076900284349803850354943569964892037445626878613503450363876786348078010903533144964616961457034278405748601025980332296778330901901103218603764771754504031147903751848433190301153731343547724102988271896949506139029662173635935636120284868400727791866402735066525283704896026247349692583198130251707872197008979202411537994156092411023762313906824083040234923286800709775202231065218987180616021191409023881809270201151011635316914801967511257905055612019386002656404009850182150048385920609801711659052704164042016615084474116798340163154621744183879701515716997079252402014760069638288644140143564777011752250301316200213230224694012712708353447581720123032332127189924001112464147448180573010494413917746707730101890405466434333500969585663485631968009246273623804326150088368515127240345600827263047025457642007850199391349860230072533799064270162200672039508443069520006195035920865737660055018299115666558000512246261649614598004282824739819556900046167611739315419800412670181024762724003244604262887448790034426799613940277400374917868696878741003118275009289814920021737799585287909100223712148548731625002299908408256086730023510684491104495300237993920972503425002,
  633824179503839800395795238259168213303852117717598082496037460885407111065300364006563503744658703534229188286052352034287300528817313710332368409642610472403219169837542796024031152291968253695520301187088500688068602990757362786651442029680319191028535190284998147123432885502735974752181101351026253570846324664510251749551466144284502411810972331104681023779783022743370080235032459828679287202231731130488424630021195371055772912090201173991669175913601968809728164557941019393145395508215330182188272376690243601711857898166322704016625131909145506080163203892124750386801515951267357837568014770859960600648830143612871646656454301316407434285537459012721329085262737840123066917282788945101112597774143898744010499379068842345100101908120204278032800970191519763982668009248256247589572530088430469602478453700827447506629021006007855419157128639450072547798566632076400672394246771634555006195882059312537210055037214844378138100512285684738775314004283585602103145710046181088480234670100412691805761724552003244912106877340310034430536549532201500374952902595845656003118290766690917570021737530873794518000223702863961537216002299736418989748410023508237872956106200237965072133498992002,
  656964385775569600396002364451476331403853940472794176952037476651406282307220364140557233788161703535347808686288839034296470689768346690332442203939582579303219752571877641703031156806005411289310301221376740810891202993310319037632004029698943733011318640285131220382472783802736905582243631023026259942144826359390251792205346245602002412090129179983210023797634481610084270235143940895262425702232410624809095392021199410963650841860201197406391206274901970131802611068780019400412727842868840182227135116483881601712059921304275932016635332601078714470163253878353415781001516188772378407563014781791526389136460143661561476208889901316617072569174164012730044287982558390123101857164468343301112732678232435174010504388247964352370101925979866870979700970801920422886389009250252407028657900088492805765818370900827632981192207413007860664251976600920072561857036442637800672750255723564999006196730704463858490055056175113724192300512325177156213179004284347357286960770046194573267669949900412713430979627493003245219775630358370034434268883786796200374987860155450057003118306435576930980021737261599541026200223693583160021812002299564613763019760023505794635285260100237936267071184956002,
  680926831156254230396216690963082121403855825190870626179037492941251245266230364278900353168965003536501882813167563034305924482357358730332518224370473319303220352441457315551031161449344166038170301256621111720382902995932529878595920029718059417957522420285267702409026788602737859554796235880026266467056954702600251835855617644493802412375598121023768023815876251617704160235257776366674183002233103964629222640021203530195298333540201221263558106984701971477884862781569019407806691303818460182266646579523214501712265169389340347016645688716807971650163304590025395917801516429553129237300014792866022227784360143710853174312787301316829153432070763012738854884103925320123137154980682197801112868870351487705010509441790309398080101943985454427818600971416893603815648009252262176376277550088555525442048301900827819474852457528007865934761274864030072575974630603441200673107537764313155006197581859322994810055075179941984941900512364738868710871004285110003906408770046208066070227724400412735056633058190003245527268759976760034437996617755860000375022741482773945003118322016160580710021736991764915979100223684306153013198002299392992315018970023503354771158101500237907505685993409002,
  705739924287385960396438461007943712203857773917040152061037509771829160783620364421729727280193003537692499081289678034315670396383384170332596535863704177503220969932948575697031166225558113953970301292847309426556702998625803788131303029737678697900987540285407677038681603002738837221470430439026273149128084831120251880524524466639602412667515312069494023834516458521868320235374013490796081602233811417424770550021207730223836013810201245571056468183401972848384992234264019415329354839916660182306816884509966401712473690342051111016656202451358300100163356036853290927901516673651069337714014804085152797758350143760753481531843701317043702459412524012747761803957507130123172813964726541201113006361213128228010514540033164904170101962137972642683100972036467580831397009254285630179135180088618630461675391700828006991756741383007871230770525413410072590151506081768200673466095357298320006198435526884775780055094229347253663800512404369842775709004285873540494803880046221566856535516300412756682676709084003245834585881622280034441719752509983400375057546684866592003118337508654135090021736721372299791400223675032949275726002299221554385229220023500918273659501400237878787878658150002,
  731433027216792870396667925773980287703859788761986769665037527160554727690500364569186391375798003538920778226394120034325717167214763670332677205175802454103221605546346568103031171138315977960930301330081694247708302910139199461361993028757814327731359350285551230082007953802739839146472072011026279991981706425200251926234784009682702412966019703798957023853563388584163550235492700412971796802234533255549879808021212012548137460910201270336904799273901974243719622135847019422982818890227150182347656296549168801712685532740305265016666876028219430030163408228668376780601516921108133271456014815450641058907140143811269205668483501317260745472482344012756765985763367910123208837374895793601113145161604210403010519683315918761080101980438432709913700972660670760963632009256322843276488760088682122660929877000828195536061551054007876552365350698000072604387819909562600673825930963889726006199291710135551420055113323347436769400512444070044640354004286637965583382630046235075595242085700412778309065378398003246141726612670320034445438289138441000375092275868743653003118352913269406180021736450424064777900223665763557510638002299050299713498580023498485135892996600237850113550213588002,
  758036486443881230396905344676523349503861871903895916781037545125386131170250364721415673398354603540187874232365461034336073782642220810332760300941003746203222259795326166686031176191384041999730301368351307296058902910423300266213701028778479372242951840285698449369007095702740865906854668065026286999321061502980251973009596300489202413271253093992101023873025491567641110235613886192068076402235269756320426511021216378693250592580201295569255586357901975664312022503526019430769215826874270182389175229095729901712900745827597335016677711699680534320163461175421909464601517171966736011561014826964228422351120143862407222346406401317480308530521061012765868375686896470123245228494639972601113285282386779073010524871980069073510101998887851344829000973289531684591870009258373890800698790088746003881769252900828385111932893590007881899631493231530072618683729182422700674187047043389164006200150412053175500055132461960253928400512483839440263685004287403277701322910046248592255017615400412799935753970107003246448690572439400034449152228749105200375126929141386594003118368230217750190021736178922575176000223656497986356394002298879228040040070023496055350980723600237821482601993549002,
  785581664944452620397150985619567083703864025590545469668037563684841456982690364878567320298994303541494975283874813034346749489916092770332845893722148723303222933207602207560031181388628644852950301407683887355053502910715077581641859028799687213340111340285849424794509589102741918092798328141026294174930814756170252020872653834857802413583360182790007023892911383784872600235737620816804801902236021202098916309021220830210825450890201321276397379317801977110592209122845019438690710403571630182431384245924436701713119379521347340016688711747168444510163514887186441658201517426269777843018014838627674924449390143914174475597215201317702417932599532012775069927895030410123281990632722565201113426734498480870010530106369233924980102017487250804496600973923079025825503009260438848177772670088810275971882350300828575723546283512007887272654815188080072633039391058570500674549446053014178006201011635606990820055151645203238178800512523677995331499004288169475375758520046262116804553894100412821562697493928003246755477382186410034452861572468339900375161506609741774003118383459710068390021735906870187177400223647236244389004002298708339105432030023493628912063359600237792894935630185002,
  814100975205129170397405125265051037303866252141459417450037582858015584764410365040795627945703903542843304745341033034357753802972520460332934056062906949603223626325298835791031186734018735118810301448107888157371602911014731067645979028821451557402464470286004248364546112802742996307894471067026301522678757058870252069848151503098602413902488628966246023913229851199419790235863955222358529402236787880380734246021225368679548491980201347466756908972701978582997043349643019446749500209915010182474294063123710101713341484421322901016699878481589419750163569374157152223901517684060649307714014850442759402164440143966577978451363301317927100219502444012784371604612786920123319127123379143401113569528952976547010535386829161171540102036237658908546300974561341592884058009262517791127908230088874940784693370200828767375086735393007892671521297998340072647454962757832300674913130447880643006201875383757812410055170873093736028000512563585675257334004288936557131796260046275649212564492200412843189851065267003247062086665101160034456566321440907200375196008380719786003118398601956807670021735634269248953500223637978340122288002298537632650617420023491205812300059900237764350453052813002,
  843627913298097680397668049310413095203868553950126002374037602664597573829880365208259574717912503544234122166908784034369096509853438900333024862541360719803224339705328183674031192231628488750770301489652496072623302911322465372729487028843786442813375060286163014243709983902744101169436400457026309046517542762390252119960796704765002414228789107226878023933989852581602250235992941307243818802237570083881770204021229995705583458710201374148901234700201980081970333270427019454947816131497340182517915551113369201713567111818155836016711214243674484910163624646653188467801517945383236193225014862411279669837280144019624813533282101318154382175624338012793774376180116790123356641326476708301113713676840354624010540713707738258840102055140109060011300975204348328477310009264610795666035920088940000179365881700828960070748756177007898096317041944450072661930601560622500675278102680985859006202741659457912840055190145648907573000512603562445183243004289704521492533130046289189447784937300412864817169905229003247368518046301710034460266476829865600375230434561194678003118413657167961380021735361122100682500223628724282008316002298367108416904660023488786044868397200237735849056486838002,
  874197094027951610397940052774658778603870933486282193592037623124888555372210365381122958888310003545668724318163387034380787680325389500333118389824983071803225073919778607649031197885639990638200301532347648214086202911638490253353726028866706247655075760286325818803531443102745233308715861989026316750486461408060252171235819655930702414562415366556875023955200522719435710236124631950476517302238368110627440254021234712923018936550201401331539922925101981607962936237130019463287922815919320182562259736686634701713796313701954516016722721404328369030163680715119021353801518210281924565578014874535052697377990144073322133660837101318384290830877436012803279221109051110123394536627673760701113859189327546597010546087355002064050102074195640266192700975852128310185531009266717938102358470089005456020806758200829153814736337584007903547128265752750072676466464806916600675644365203191623006203610465651005880055209462885726614600512643608269980540004290473366979071180046302737478972894400412886444609340544003247674771152828820034463962039816474000375264785258003161003118428625553069840021735087431074578200223619474078437598002298196766145967030023486369602964299600237707390648452584002,
  905844287183215370398221440293199233503873393298266407754037644259820145263090365559554539895251103547148446250316562034392837673702254130333214716727044679203225829556312714435031203700345981723280301576224050973908902911963020696126194028890225697573974210286492760671884223502746393371325700002026324638713244506910252223698983892476202414903524289630748023976871175685657370236259081029023626402239182264043124520021239521994322681280201429023527256874101983161432862793930019471772119144758740182607337805076648701714029142771012794016734402364982083520163737590125813774001518478801605846266014886815914789880790144127677162449039201318616853462611667012812887126141176410123432816438581079501114006077658743670010551508123148764630102093405297159549700976504710750839339009268839295042891200089071310179670065700829348611262948322007909024041306186490072691062709895235100676011920463207150006204481805272231970055228824820980774000512683723114250653004291243092110535890046316293274908355400412908072124803583003247980845613641250034467653011600103900375299060577944058003118443507321221300021734813198494914600223610227737739485002298026605579842850023483956479801993100237678975131764235002,
  938606454926203780398512526421718049103875936015441448122037666090973392089320365743728183612090603548674662387619635034405257146877176520333313924264485353303226607218575413491031209680152673189170301621313198996506002912296277042782690028914359873819724160286663940783445436402747582017468731358026332715415908034900252277376596972881102415252275953305669023999011308161732780236396343435543884802240012853046042373021244424610802814160201457233864478021701984742845382012774019480402738711567350182653161102047771701714265652440616404016746259557949166950163795282372801934501518750987681934241014899255721768673900144182697194918118601318852097597546745012822599086305409050123471484196923259001114154353155814913010556976366543728620102112770130018634600977162124998899992009270974943389998200089137564532360930100829544464551526212007914527142617637660072705719494281625700676380770907572198006205355681248142890055248231471271612300512723906942325820004292013695404090790046329856804393789700412929699671832293003248286741059610800034471339393398126100375333260627777256003118458302681052390021734538426678055800223600985268182419002297856626460935820023481546668613934300237650602409528673002,
  972521790355722030398813635949333491203878564350689679863037688640598275382110365933823011721900303550248787648774306034418057062569012840333416095717286424903227407526612236027031215829582629273660301667647394599943502912638485118023894028939124221461663060286839462431229741902748799922272956459026340984904631307850252332295521384047002415608833690215369023102163060281978940226536475096423787802240860192138585530021249422493075976430201485971702059594101986352673128253717019489182150305962550182699741136011877201714505896851947754016758295446785626250163853802688689961501519026886070372345014911856349153801630144238389598105851601319090051013716151012832416104976083950123510543366700925801114304027218726817010562492441731429020102132291194789011000977824400538838366009273124960342927600089204220961039276200829741378834470042007920056518771710450072720436975478624700676750918980640065006206232096496685620055267682853014740500512764159718269940004292785175374954360046343428036254346200412951327206070179003248592457123516680034475021186445831000375367385514223343003118473011840749000021734263117932480900223591746677974316002297686828532014240023479140162650758200237622272385144442002,
  100762975727834350389125104221332327703881281102982532616037711931633769546560366130023555310262603551872278599140888034431248697788870860333521316689381787403228231117298171401031222153277720333070301715259767655588802912989876360269453028964534557786432930287019431319220068302750047776113235014026349451583672933270252388483185653916902415973364151484263023104473893176342850226679532990113678602241724601503132469021254517391542554580201515246342012659101987991396209372486019498112758403900170182747089580170042801714749930881090594016770512526653632620163913162033057980901519306543209559861014924619692347986900144294761811684412401319330741742424039012842339193931371990123549997438353768201114455111325964612010568056707445391880102151969553104263500978491566991515493009275289423398348320089271281353623633700829939358353631740007925612256456818280072735215311054261200677122367124561126006207111053927188770055287178982439953700512804481405879309004293557530536416670046357006939337992100412972954683266264003248897993440040780034478698391996320500375401435343962590003118487635008046950021733987274558810800223582511975262815002297517211536211700023476736955181213000237593984962300597002,
  104397113122478390389447277471756695403884089160026456398037735987728489223350366332519912789962403553546634634551268034444843652532330650333629675171145401003229078644777270644031228656002147770180301764184295936158102913350687955391916028990607080880485160287203955616116372502751326284939544848026358119953324499340252445967595674363702416346037370579919023106834636002833910226825575165768320802242606407098362967021259711086869049610201545067240225096401989659502316385571019507197003664170430182795218274679729001714997810148134593016782913324688959570163973371497783553901519590006064010058014937547666822022580144351821348581448601319574198070213645012852369373411998180123589849928924218301114607617034954828010573669524618157610102171806272306980200979163654114561820009277468410350880280089338747603794823500830138407360308065007931194442477766640072750054658631016900677495117779265659006207992556440347420055306719875591361500512844871968683473004294330759399855590046370593482515737800412994582059275075003249203349645763270034482371011320427000375435410223634479003118502172390232680021733710898849837700223573281168135621002297347775217026880023474337039492100800237565740044975642002,
  108158804174916200389780513166135667703886991500987535376037760833261932394470366541507912275868003555273399197564640034458853858703157520333741261603494702103229950780913278515031235342645542510070301814455825942823502913721162973495924028101735837840139780277393146010225408502752636170611957162026366994611902725710252504777346238275102416727026828323906023109246314914371260226974660762196763402243505940757097007021265005390477712010201575444008833960601991357486834617246019516437363431211940182844139228847833901715249591026381696016795500400372242300164034442308476710101519877322129653990014950642208301654590144409575795605667901319820448540848435012862507672180278610123630104382221908101114761555982489380010579331256391272930102191802425469775900979840691802756494009279661999293626380089406621610999542700830338530115232233007936803163755334860072764955175884811000677869173382447298006208876606928207400055326305548327487700512885331369945900004295104860474751970046384187634681746100413016209290056581003249508525379156130034486039045706598900375469310259836768003118516624194143930021733433993090547500223564054264620798002297178519318323270023471940408888217500237537537537436411002,
  112052401604995190381012518035466026003789991199297013955037786493366337900990366757189278530541803557054161027019781034473291589274416210333856168943649864403230848215751557691031242218226138731640301866110094222068002914101550508808252028104480543654192100277587115765514373402753978171242456203026376080257780781740252564941632794561502417116509519080619023111709976075544260227126850027126420302244423540285679650021270402145043532480201606386418631666601993085852956343028019525836352244309330182893864623349887801715505330651654836016808276345904071440164096385825928753801520168539439190754014963905272955938360144468032814076855501320069521957305591012872755127579483280123670764368988857201114916939885151256010585042268125305840102211959091416358000980522710088406932009281870268618701960089474905280454050700830539730888565701007942438507325869030072779917020543978700678244536369546215006209763208274151890055345936016321424600512925859572664880004295879832268707110046397789364753558400413037836331676171003249813520280579240034489702496460827200375503135559124995003118530990626170510021733156559558148400223554831272687073002297009443584329080023469547056692298000237509377344237031002,
  116082402395262060381048166003610986903793091425540058666037812993949174546780366979771804604813703558890555441763332034488169467693075670333974492732590122403231771657992577859031249287894024607850301919183749183387302914492105822746908028107296564919082130277785980778851758702755353041543734611026385381691459500250252626490263424956902417514666018143997023114226686031209020227282204336785902402245359549564934133021275903224998689840201637904401506397101994845111794949170019535396522353241910182944406812475622201715765086931709899016821243786583949790164159213547574723801520463706567484072014977338837587087530144527200140460311801320321447383781824012883112785593509370123711833487065403101115073780539741593010590802927409888220102232277354742598700981209739141727756009284093297017762980089543600523147623700830742013959889571007948100560340856850072794940350388250900678621209173732637006210652363352886290055365611295060941900512966456539574250004296655673287458120046411398641672221400413059463140304619003250118333992275240034493361364906534200375536886228011624003118545271892255050021732878600522100000223545612200244176002296840547759638150023467156976244949900237481259370217825002,
  120253452429503320381085034553284612103796295450430137392037840361716279347740367209469528300280603560784265659450179034503500477534297780334096331164248953703232721835477245185031256556934471833500301973714373428944602914893090490237033028110185682729458290277989859638459333402756761553185101162026394903817679223740252689453671046592402417921680550342415023116797532081466520227440786215811824502246314318652706631021281510537044562620201670008052917225401996635782500626876019545120464240465530182995778326401228801716028918555752430016834405381193160530164222937108969914601520762872637006256014990944899821819770144587085587005822901320576254147711853012893581700906876000123753315361556851801115232089823708324010596613604073776610102252758305837645500981901809271220254009286331163482531460089612709255846126400830945383618196031007953789410066516010072810025323247732800678999194225890003006211544075030424130055385331399848638600513007122233144180004297432382034894310046425015434402486100413081089672218025003250422966158363830034497015652384487600375570562372965439003118559468197893660021732600118244134000223536397055143075002296671831589208550023464770160904601100237453183520504231002,
  124570351275798380381123164287719964403799606647871467456037868624195663034880367446502913584261703562737024151340635034519297972411797640334221785156491337503233699495684357197031264030771345771930302029740506606736802915304772549344781028113149720842418360278198873683599546902758204495155636604026404651647573040530252753862925844302602418337741059882518023119423622663120660227602659357484325502247288203888025694021287226020671408430201702707634404377101998458392377618489019555010807149893600183047991873488580101716296885004059471016847763822381580730164287568285280320001521066087323329207014100472547830421200134647697042391115901320833971841799234012904162936965047410123795213645000889201115391879695576225010602474670194945590102273403040905046800982598950924050548009288583947305321080089682233401095420000831149844161879665007959505143883370030072825172097001876100679378493954598620006212438346164072530055405096345802051700513047856615581999004298209957013072860046438639711932958700413102715883797800003250727416424837220034500665360252708800375604164100410848003118573579748136450021732321114978286100223527185845176352002296503294818363310023462386604047437700237425149700505735002,
  129038057118443360381162597120958470803710302849811205283036897809762001362370367691099037091410003564750614034039221034535575686150799050334350958423917024403234705406240472984031271714970598091800302087301668798981802915727426654300347028116190546655121540278413147065523209702759682674134738089026414630300862170070252819749747936769402418763039281452958023122106087737727440227767888644296485702248281567996899742021293051648685813110201736013576135090601910031347700303744018565070219622363290183101060342611699001716569046557708163016861321837058463240164353118992787261901521373400860663361014101868261289007500134709042472369866101321094630326060052012914857566035069410123837532017535742401115553162195378588010608386500110698090102294212661983916100983301194686429487009290851728079559860089752174887224769200831355399898728741007965247849285832880072840380829578472400679759110786119041006213335179602418230055424906147853807600513088659648832914004298988396722235120046452271443276267300413124341731530625003251031684439555380034504310489886375500375637691516727140003118587606747588710021732041592970918300223517978578078445002296334937192790460023460006299067344000237397157815914822002,
  133661691843221380381203376318868485403710656459098989169036927947661831251200367943491779848744203566826870499141455034552347743230253340334483957552534800603235740355442494411031279615243843784410302146438384457609802916161334231983052028119310072203766730278632806809702370602761196914870193113026424845008094274630252887146520280539502419197770812608983023124846079186331710227936540168862663702249294780199776288021298989427746016960201769936479485524301910220158034727657018575301410037843740183154996805510722801716845464308411522016875082186787223260164419601290406204201521684864047444235014103281836484285020134771129920424231401321358259729878806012925666669266524940123880274187069028401115715949445090185010614349470427804340102315188276970094800984008571283989759009293134585700310810089822535648350164200831562055145916148007971017613881780300072855651678952607400680141047144375400006214234578185313640055444760820751747400513129531294580878004299767699660822430046465910597469235200413145967172008366003251335769852240130034507951042677729000375671144728247887003118601549400411240021731761554460747900223508775261525974002296166758458542500023457629239375850600237369207772705929002,
  138446546280647730381245546541406498303711021862927502476036959068039471409290368203922024366086203568967682281789205034569628669501215900334620892076354242903236805152793264866031287737452024545370302207192206899246502916606783641944294028122510255184389470278857982879374640602762748060563930582026435301112925505100252956086301816355502419642135187460440023127644771211012620228108681255171123702250328216320688284021305041398905236210201804487119659238501910412325489602989018585707127164492570183209814519173771001717126200168463246016889047668184297340164487027381220055801522000528251967973014104713481703105520134833967508422015201321624890454077718012936591336752834850123923443889447441101115880253649061977010620363960032664820102336330999637389100984721111582165682009295432600364792660089893317624377661800831769814229990634007976814525392136210072870984803145669900680524305450939346006215136544743862950055464660379059077900513170471514249317004300547864325492000046479557143573038600413167592161928100003251639672314471050034511587020035983400375704523841260201003118615407910321220021731481001678870200223499575903138042002295998758362036600023455255418402066600237341299477134354002,
  143398085611918080381289153886157166303711399443211014042036991201963687403290368472637857235264003571174993169143641034587433403188329080334761874555941622803237900629550492081031296087609160470250302269605743371948502917064070340042771028125793099995920330279088808240424633202764336973265592860026446004074447063050253026602840861755202420096335951683838023130503360743333860228284380480186023002251382258898110064021311209638163073670201839676448342635901910607906177394249018596290160714605730183265526928246854301717411316880791691016903221113322053320164555409614026833301522320445418075058014106163407412726710134897563437278421601321894553172998152012947632667592858050123967044888627105201116046087094457220010626430350101497730102357641949658779200985438846586571026009297745852572897850089964522761006611600831978681486867635007982638671650440950072886380360224304800680908888125013397006216041082100408370055484604837154493900513211480269001948004301328889211133500046493211050673380900413189216658092003003251943391479680140034515218423387232900375737828962004188003118629182480592800021731199936848788400223490380510476510002295830936650054690023452884829592631200237313432835735239002,
  148521954942463650381334245933189761103711789593855255804036102438145512191790358749894777387519903573450803549828466034605777306181660490334907020658988880003239027639289316059031304671886192139710302333722680706626102917533497045771260028129160658805972440279325418927629518402765964534274080955026456959469557112640253098730588754543202420560580738881895023133423067859818010228463707695804100202252457297297549120021317496257025138860201875515596397899101910806957086991021018607053341907561770183322147667472214401717700878029124761016917605390135839850164624760484901957001522644668070883280014107631826280866220134961925987622410601322167278836595179012958791769952834960124011080976844719501116213462151688907010632549024110547110102379122252627680500986161807443376672009300074423127708270081003615300973282700732188661261819982007988490140602428210072901838508299406900681294797583414605006216948193068516300055504594209232335500513252557519743559004302110772810883340046506872287880630900413210840617407357003252246927003146270034518845254174357400375771060196672081003118642873314058030021730918362186436100223481189091046316002295663293069742920023450517466411652500237285607755322511002,
  153823985048129880381380871791269389003712192721122046527036105863951451131570359035955910160759003575797172005408816034624676175626223010335056449242944743503240187058478845169031313496614915154030302399587811566073202918015373913353388028132615032639828240279567954112295739502767631644547225804026468172995378878360253172504713751411802421035081348312782023136405136204555150228646734051171713202253553727825898625021323903403070992380201912015876593887901911009536096404946018617999544039829240183379690564155394901717994948048266523016932203402835188400164695092638775305901522973249322570223014109118953195912710135027063520467766401322443098672545018012970069761128654010124055555974789432501116382391274858989010638720367846322400102400773040079226200986890025439689162009302418393136010900081010821032785177600732399757909468833007994369020305602100072917359405525094600681682036240558360006217857880452963990055524628509302720200513293703227120805004302893513616142010046520540824330012900413232463996886478003252550278541990990034522467513856939300375804217651407827003118656480613107530021730636279900205400223472001652295741002295495827368612400023448153322340648300237257824142987866002,
  159310198299153700381429082145462574003712609244004637287036109401015171023820359331092227332819903578216216945004592034644146255816721690335210282439758801003241379787072992753031322568292009248960302467247061304872202918510018706691481028136158372493104740279816556171314837502769339225119739627026479650471725767700253247961115186260302421520053824012029023139450833419059900228833532015367420502254671953847575664021330433260530518280201949188786375491901911215701985635647018629131683062118590183438169640661302401718293592234486532016947018092319195550164766418871023024101523306242878205312014110625005287294380135092984477888803601322722044188365279012981467767608441060124100473731775490701116552887002198923010644944769415853840102422595449511574300987623532003928324009304777844008810280081018069667846163900732611975793774184007100027539892880450062932943210097693600682070606508442080006218770147049726430055544707751191692800513334917351523007004303677110116589430046534216629181754900413254086753646673003252853445755173330034526085203911164900375837301432306221003118670004579691030021730353692190970600223462818201616709002295328539294537830023445792390878490300237230081906099707002,
  164986814767266620381478929306177874503713039594614083588036113052841554660910359635582773281233903580710118284163876034664204250405264980335368645742790365603242606749115955030031331893583164171790302536747515453853002919017756978248359028139792880468585760271007137075766614902671088217529607907026491397843614386830253325136437892732902422015718535330741023142561451579493260229024175400455951502255812385902471406021337088050868851820201987046010671935801911425514449707781018640452718163763930183497599116939579901718596876756023209016962052436596148500164838752129074343101523643703041632131014112150201946005890135159697383700807301323004147173548306012992986925135487700124145838125915606101116724961956511675010651222619256977300102444590624407225800988362358706204550009307152857461839960081025361403046638700732825319288025319007100620936475178990062948590080254705400682460510796628980006219684995645962130055564831948541364900513376199853082899004304461560800199750046547899671621233100413275708844910172003253156428303484170034529698325829729100375870311645412367003118683445415318190021730070601252115300223453638746345092002295161428595758850023443434665541350600237202380952302112002,
  170860258521397960381530467259683362903713484218576956590036116823042452992500359949714897433628603583281119169149422034684867334929945340335531668095935261203243868893362677327031341479327304542240302608137447842882502919538922251947327028143520810937723150271033254687239583502672879584253080775026503421183826325500253404068086895675402422522300258913612023145738307641368200229218739384918916902256975441825739512021343870033379968880202025599424744520401911639034111881003018651965652364407000183557993413079620901718904868663702231016977309451207413150164912105514033437201523985684721401223014113694764845295550135227210844145189201323289439701707668012100462837877150550114191653064295125301116898628845615478010657554310148644910102466759714254394600989106537258696667009309543515516072140081032696435857875500733039792774831469007101217100616479460062964300174273802700682851751512231958006220602429020001140055585001114810076900513417550691677491004305246864153258510046561589920859159200413297330228004133003253459225849542130034533306881121763200375903248396721086003118696803321059600021729787009269556600223444463293760980002294994495020879000023441080139862637300237174721189513857002,
  176937164117603710381583751720143830503713943575444714047036120715339843629370351027378449317679803485931527747814067034706153169672354230335699481985024330103245167193914661563031351332540915941180302681466349376032702920073856210175033028147344471727309120271060023693810053402674714309148428306026515726695519599690253484794242376091702423040028262140698023148982743891852980229417300537468208202258161546869447892021350781505789056710202064861097074304201911856322537035179018663673533113066980183619367151895443501719217635901670708016992792189655608480164986492282316451301524332243436753404014115258917961510970135295533548579380501323577954132737326012101639328296020060114237922483146884401117073900462788669010663940237221249400102489103874568354400989856099516028253009311949900498225430081040074964332316800733255400646111809007101816041166810270062980073650471785900683244331059897186006221522449941330920055605215263272519600513458969826928761004306033018660376670046575287346131708600413318950860360518003253761838057788010034536910871312719800375936111792176140003118710078497546900021729502918421772400223435291851088984002294827738318865950023438728807392947600237147102525927338002,
  183224383289044510381638840183222171103714418139115062902036124733569079453300351060809624339876003488663718988289913034728079912852425650335872223531550244403246502650871484660031361460422474602710302756784957473924702920622908884977840028151266225331850300271087459687394687002676593397908631012026528320714890681700253567353874914618302423569136388058592023152296128409805580229619936841247967302259371133826123708021357824804863799360202104843292290308001912077442245233000018675579452894698770183681735161540944501719535247318249197016100850374383715830155061925847303897201524683435323654936014116842887595110180135364674270171592501323869723114984559012102828280159121160114284650348026921601117250789687216534010670380797966987610102511624266912879500990611077475645797009314372095041271990081047497187103868300733472147303085965007102417766987161940062995910667203590500683638251841788554006222445061170584180055625474407019917900513500457218204565004306820022804508140046588991916700699100413340570699516103003254064264594479860034540510297944303100375968901937669628003118723271144974200021729218330879826000223426124425498487002294661158239051290023436380661700001700237119524870007581002,
  189728991841944690381695791981290065503714908398265650375036128881682229791010351095296387283928603491480136546716356034750666234168987350336050032588778292103247876290998391642031371870356983016830302834145286197553402921186438853537754028155288490152158900271115578617225578802678517878523167543026541209713888001720253651786761018132302424109863141824025023155679855533647300229826727718430650402260604643154214980021365002307034675880202145558474138640001912302456725461812018687686549844289010183745112478155545201719857772676901615016102444724447918770155138419781008421801525039317140883530014118446902391831480135434641866600275501324164779587435784012104029810806434710114331840653990856301117429309484439252010676876392250237310102534322058921628700991371503278194730009316810182084941260081054963303388179600733690037156264103007103022286949443470063011811382861247100684033516257571340006223370265459525760055645778558960169700513542012824619337004307607875066963220046602703601853737300413362189703112399003254366505127688390034544105162574372000376001618939041523003118736381463098330021728933248807389500223416961024103976002294494754531130500023434035696368596700237091988130491235002,
  196458296763694480381754668340294907203715414856800433385036133163751516709880351130871040743222303494383294685291408034773931328694812170336233052840300186003249289168410349354031382569920613908890302913600657068971102921764813438021484028159413741760707530271144396797668355502680488801749080158026554400302977891090253738133498934574002424662451778686394023159135346337210680221003775405521347002161862523105498951021372316429024406430202187019308493142501912531430449557076018699998008368598120183809514348540823601720185282667324628016104062586158084950155215987815758137301525399946276166680014120071193364028430135505445280758467501324463156781915483012105244038535417620114379497425771072401117609472906801507010683427422317958470102557198424319613500992137409207896089009319264244876222960081062473512982924700733909074625436861007103629609936438860063027775955872871400684430126704396134006224298065551040010055666127731817985900513583636605034909004308396573927425880046616422370904377100413383807828895597003254668559327291640034547695466776851600376034262902078880003118749409651239620021728647674360771200223407801653965287002294328526945163010023431693905000542800237064492216385567002,
  203419843549398930381815532438330892103715938034309083797036137583972849044630351167566844082569303497375780241946127034797894931135057110336421431901090177603250742365272947557031393566885465060450302995205730604139702922358408909895402028163644514194297020271173930916203096102682507241591489619026567899233963923750253826435524761061502425227150393535214023162664049113686520221025309822722126402163145229854464468021379769628486679830202229238666408118501912764428886309561018712517059775635620183874956232868288001720517848916658015016105704280485911670155294643845895662101525765380752372225014121715993912170030135577093541463009601324764888225298842012106471082607495330114427624717954658301117791293093903656010690034292810123750102580254542944652200992908827692923021009321734366969867910081070028016268077300734129264139665362007104239744841763640063043804544701637100684828085576883014006225228464179118260055686521938135073100513625328518061325004309186117863967800046630148193192250600413405425034716516003254970426864969780034551281212141642700376066833932515220003118762355908282910021728361609688939100223398646322087883002294162475231571870023429355281214610500237037037036967424002,
  210621423753363730381878449465963605503716478466539796426036142146669456828870351205418040827115903410046025465297668033822577330458193500336615321421124237603252236992520542944031404869224427484360303079016538573533202922967610698800562028167983401274595280271204198041571231902684574295793741196026581713402860601350253916735128850257502425804212012036944023166267439867794690221047284412532167702164453227629696129021387364404654262620202272229627213576801913001518515758493018725246982911936480183941453807418686701720855544000816416016107370132419905650155374401929492893001526135679233751412014123381539846505110135649595764168604301325070007741737493012107711063254587650114476226615162118401117974783273054233010696697410770168770102603491600768879900993685791305776851009324220632228888330081077627014206178200734350610137271083007104852700569821220063059897307844763100685227395267105863006226161464068846030055706961190270268700513667088522057615004309976505353065660046643881038083267600413427041278530553003255272107414200890034554862400274532100376099332136030026003118775220432677970021728075056933547900223389495035423192002293996599141143340023427019818646476200237009622501782302002,
  218071082772214270381943486688358947703717036705885878494036146856295628893510351244459886807844003410363945603000986033847999384908838200336814877191625106403253774190592056492031416485116169570180303165090517006745502923592813606085842028172433057957119690271235215632091764402686691086337362669026595849852822397050254009075472520303002426393894683389439023169947022816314850221069707718185914102165786988847289624021395103298996643680202316005481653616301913242766843672778018738191104807743760184009022967353134101721198441455944289016109060471010864070155455276290081750901526510901032235139014125068069408894250135722961151686815301325378549454898758012108964101685668470114525307232226818501118159956759724127010703417185655465370102626910789920233700994468332763663034009326723124825053600081085270708342597600734573117065825468007105468486035759000063076054403832489800685628058164576014006227097067936391240055727445500399713400513708916575132571004310767734869614200046657620874969713400413448656518397618003255573600650255400034558439032797115800376131757618247975003118788003422440350021727788018228962300223380347800868780002293830898425027490023424687510948666600236982248520643281002,
  225777127866503590382010713509268431603717613321886507022036151717440556445600351284728679083725603410691620129269933033874182537411991720337020259253996554303255355130184835350031428422950239808820303253486539957244202924234422023097672028176996201709245900271267001544150101002688858759952021772026610315777129156710254103500605073598502426996461574719920023173704330897105680221092588439731391402167146994246327101021402988895887324330202360579735068497501913488242416222673018751352801330178910184077679829516454801721546615789995007016110775629417813980155537281318400992001526891106113783655014126775823294809150135797198994910002101325690547790218610012110230320093359600114574870714375252701118346826958002175010710194029347822440102650513308704015000995256484928866794009329241929239388330081092959300805801100734796789382139812007106087110165424800063092275991227066900686030076656227028006228035278488991740055747974880517010100513750812635145588004311559804886943650046671367673270440600413470270712482087003255874906250191200034562011111346693500376164110484738569003118800705075152170021727500495702281500223371204625268750002293665372834737560023422358351790501900236954915003630080002,
  233748136427885470382080201536924478203718208901742052979036156734832285528100351326261785661157503411029338835859271033901148831378517040337231632011512310503256981013027005759031440691332290802540303344264954044072602924892850154326461028181675613917830530271299574040862886602691078488635668976026625118522228856100254200055481129630002427612181067153337023177540926286745180221115935436739224802168533733026440001021411023823280889960202405966110620865501913738014834844031018764735497844476270184147440735272945001721900142494434820016112515944954411240155620431574159065801527276355104789403014128505044675499860135872318673540132401326006037477167668012111509841660557960114624921237407992701118535407361052216010717028356164005320102674300361624424400996050280809128302009331777130262663520081100692994307592400735021631552254489007106708581895322290063108562228621717900686433453126398292006228976098424942910055768549342433367300513792776659707400004312352713876833580046685121402430985100413491883819052727003256176023892848830034565578637576196500376196390841015271003118813325587962750021727212491473365300223362065515413921002293500022122149960023420032334858046100236927621861088070002,
  241992964499140860382152024651901015403718824050844382444036161913341781346000351369097676031992803411377399839165185033928920926921947440337449164343826957903258653072668754495031453299089427347860303437487613787734102925568522245514813028186474141327067330271332951800922370202693351470185064301026640265590838806990254298785978277596502428241326853580581023181458400926938080221139757731055488602169947702987494134021419210753400004240202452178552566857001913992154771297722018778342669883405350184218322253375101401722259098056073964016114281759135807270155704741787813482801527666709298535167014130255979220333390135948329656822744801326325053551531484012112802790567098180114675463007881516901118725711551571891010723920582866285580102698273159406155100996849753558018597009334328812995891720081108471992143373100735247648051428705007107332910172567510063124913274639645400686838189956820057006229919530433586350055789168897777797900513834808606180915004313146460309529090046698882031923753500413513495796482658003256476953258846650034569141613154091400376228598792535121003118825865157589340021726924007654858900223352930478042131002293334846039504310023417709453854044000236900369003627281002,
  250520755554508060382226259076995656903719459393322552434036167257987107491850351413275952551652903411736109811092255033957522117496796300337673029724376202903260372575292976255031466255275681348930303533217917757305102926261872816829771028191394697507174020271367153927623726902695678928736876042026655764645106304590254399738915054070002428884178038152319023185458377059814090221164064509598961302171389410671421089021427552403432440120202499231229572443401914250733982926040018792177843824929130184290341182865391101722623559969024929016116073417725982640155790226862366409201528062230661705538014132028875119301320136025241504285771101326647631357703991012114109291996448000114726500263290715001118917753202252569010730871128673007240102722432919015987400997654936475313716009336897062850815430081116296498192380800735474843364129728007107960103954844230063141329287932997400687244289526597216006230865577195297070055809833557997249300513876908431682006004313941042653755780046712649531248131000413535106603249265003256777694030575590034572700039764297600376260734444698001003118838323980318060021726635046352215400223343799519838542002293169844339402800023415389702497875800236873156342121419002,
  259340949548036690382302983449191994503720115572604335304036172773937723220100351458837382679786703412105784216091400033986976346968995460337903406340737373903262140820545747517031479569177616492020303631520845546903402926973346901208486028196440264354553750271402199958078999102698062115319556515026671623509829842630254502962069251464002429541019237528979023189542507772270110221188865127203513802172859371506230218021436051536238297770202547138538075789901914513825328108914018806244597578215840184363514556011623801722993606746789850016117891270785556190155876901875176926701528462981840954047014133823983105699970136103063866483450501326973806550994864012115429472142439000114778037272252224201119111546076241149010737880415269181250102746780863684408900998465863007370106009339481965550397170081124166716917928800735703221984022181007108590172210359950063157810427181855300687651754212193850006231814241381472860055830543334356804500513919076093080301004314736459376734820046726423869930651900413556716197934168003257078245892194620034576253919106099100376292797902846200003118850702252004270021726345609663720900223334672647435870002293005016774810670023413073074525498100236845983787706926002,
  268463292237867750382382278893761651503720793251994013505036178466518901976210351505823932106186303412486747554526919033101730822712918640328140477218021184803263959142387086821031493250320065586880303732462995599477502927703400287985185028201613893624065320271438109872621283402610050230841619603025687850175741959500254608504196563057402430212140683914727023193712477549490250221214169109506277802174358109952231618021444710961067544370202595915105696040301914781502781921958018820546561278096520184437859641276134401723369317934477872016119735672720069730155964782079789946301528869026169525205014135641556478982650136181806485745310901327303615099950537012116763458216031000114830078334688492701119307104027603096010744948866817099920102771318222927260100999282566747498457009342083607129304590081132082853367637500735932788413957142007109223123917801140063174356851093210000688060586387417759006232765525654522010055851298237939815000513961311546999936004315532708944198150046740205017525145400413578324539223134003257378608529625200034579803252894057600376324789272263606003118863000168073600021726055699680522200223325549867414652002292840363099055660023410759563689387500236818851251781970002,
  277897844794581880382464229100567672503721493115266900364036184341216274485410351554278798785433503412879333612535193033104854305565991880328384430345368280403265828909962478848031507308472003596400303836112623896493502928452499771911830028206918708494054380271474904104402903302610300081453856071025704452802854848530254716415049570313202430897838329905406023197970002837794000221239986155882289902175886159650501168021453533534288005790202645575794689237401915053841451999032018835087417988046660184513393946319204701723750774121154002016121606982328756080156053882907781924201529280427673932241014137481851127786770136261479196930215701327637093288689347012118111378452111570114882627782012656901119504441001787171010752076909966978060102796046232567391600910010508143633833008344702073934397040081140045113173665800736163547165961323007109858968066289200063190968718399952700688470788423404815006233719432667851600055872098279648101100514003614749820436004316329789820403650046753992943612863500413599931585906032003257678781630547080034583348042857931700376356708658175364003118875217923522650021725765318486646000223316431186303568002292675883065827880023408449163758494500236791758646005521002,
  287654993701987670382548920402632397703722215867281054234036190403680499782150351604246447904244703413283885718541774033108070683456805210328635458805625245203267751528495645319031521753652559409470303942539683532435902929221123407685208028212357905164816830271512603549191332102610555896881252603025721439723869845000254826745397078423702431598413955180343023202316832616955600221266326142426306802177444063573618659021462522160123959990202696135705451919901915330917594601470018849870904411803790184590135221037047701724138056952320353016123505562853791710156144219970623543501529697251080691110014139345125553135130136342091928185564801327974277719250272012119473362116330010114935689977314189601119703571036091505010759264973867615750102820966134756350900910093344096223190008347337452625208420081148053702552933500736395502761225929007110497713655335170063207646187859855700688882362688603573006234675965065856630055892943470202095200514045985657677436004317127700468150230046767787617802637100413621537296876751003257978764884392740034586888290742584400376388556165747183003118887355712919490021725474468159026600223307316610579623002292511576429180140023406141868518183800236764705882296363002,
  297745460958959950382636441857034783603722962234606665757036196659732067656440351655772647806165903413700757006607289033111382628909392730328893760908276970903269728440203060313031536596137169497240304051815865193452502930009760770097649028217934754491164770271551229575366766802610817813557511685025738819447651950370254939547043806095002432314175275067863023206754748982143190221293199124982479902179032374178712611021471679791405467480202747610180072980301915612808630896552018864900811613696980184668101460634644301724531249142531436016125431782030039870156235809061559478601530119561823110619014141231640891812810136423654701711605401328315205313955698012120849539511966140114989269315545291101119904508260131405010766513490177083150102846079177996091900910176767936159748008349989830174427630081156108828307338600736628659730095639007111139369694795550063224389418254552400689295311548759625006235635125483908500055913833820141046900514088424226463500004317926439348792920046781589009731021100413643141631133153003258278557982343210034590423998307903100376420331900084850003118899413730404730021725183150767528900223298206146668513002292347442943527020023403837671770184500236737692872832170002,
  308180314591184320382726885328203931303723732966173611732036203115366236085560351708904506898845603414130310686777333033114792888710917080329159540325713689303271761125230716882031551846463876656130304164014638559811202930818913219928166028223652603649795680271590804034125256702611085970898337669025756600662770568030255054872850435693502433045436051016175023211285567735632200221320615342222637502180651653562843534021481009430328587790202800014805934444701915899593163447788018880180985747808890184747310908733920701724930434488144321016127386012135288180156328666157505324701530547426048139640014143141660939922250136506177634530892001328659913317788416012122240041986833620115043370223708119401120107266896308421010773822893073434210102871386617160691600910260783081930342008352659293868379750081164210697823971300736863022612057409007111783945204827360063241198568388530900689709637366900887006236596916548344070055934769339823176300514130930411828944004318726004922257880046795397089062432200413664744547776989003258578160617322330034593955167328712800376452035966233477003118911392169692050021724891368374972500223289099800944790002292183482363645200023401536567332531100236710719530048508002,
  318970979481904410382820345573677306303724528833937680327036209776758107297100351763690511569711403414572920322614846033118304285901519620329433006232912574903273851102613660933031567515439777084860304279211294652221402931649094175695602028229514877842155830271631349269891382702611360511363528030025774792241107608810255172776754029789102433792516202999882023215911138988438350221348585218773828402182302473620757425021490514129226611420202853365419361703201916191350992919035018895715328796030620184827782060517463401725335697880205041016129368630040982470156422807420961888501530980910623271073014145075452176613800136589670939262948901329008439300782151012123645001940218070115097997161042711301120311861260280993010781193619265429770102896889713518085200910345392966904008008355345931307501030081172359519075316000737098595955728941007112431449215842740063258073797088100200690125342503321123006237561340876453700055955750039425841100514173504169182565004319526395647056720046809211825489279300413686346006013847003258877572483992570034597481799594688700376483668469177184003118923291224068900021724599123037155700223279997579732210002292019694444673390023399238549039520400236683785766637958002,
  330129248531059580382916920332394341503725350633565989840036216650267846238320351820180565136734003415028970116099716033121919721815493570329714373450616876103275999931258827355031583614147619181170304397482989142799402932500829391397556028235525082033539180271672888130944639102611641580520292428025793403241534234580255293313788820728202434555741923895210023220633347772038590221377119368395978002183985416205047497021500196991352490320202907678109323942701916488163134995862018911507799315159200184909533665908336601725747125317473161016131380017263467270156518249201946993801531420083143504222014147033283787999550136674144924904229901329360821160426996012125064552829851870115153154619215813001120518305761436832010788626108003304740102922589734751855000910430601039369403008358049830406817810081180555500619465900737335384318847638007113081890768464610063275015263200397800690542429315565765006238528401076471670055976775928945743800514216145453692505004320327609980302460046823033188732122200413707945965153070003259176793278749530034601003896910278000376515229513838424003118935111086397470021724306416802880200223270899489303914002291856078942111620023396943610741650500236656891495549099002,
  341667294152419200383016710415597639503726199185142132180036223742446045282700351878426027861323203415498855200082413033125642178175039510321000386259209549603178209210951715799031600153952557423290304518908786651333202933374657240358293028241686802729124200271715443980263566902611929327107821567025812442913657405980255416540107379252602435335445795854813023225454114660321440221406228597210262702185701073288750684021510061171672564550202962969221185269601916790111837525691018927562413193080420184992584732786153501726164803919584622016133420560015728900156615008039944837901531865011938364236014149015427691242870136759609997613189601329717097124088392012126498829178921690115208847122510371701120726614903366428010796120801089539540102948487954982994500910516410762571938008360771079396418560081188798851600309800737573392268258778007113735278913481060063292023125592358400690960900158416085006239498099747564460055997847018199082900514258854220287027004321129646377723880046836861148539801400413729544384607701003259475822699717580034604521461094615900376546719205077430003118946851949115130021724013251713972500223261805535882765002291692635611821710023394651746305572100236630036629985624002,
  353597680118623630383119819800416232503727075333891590014036231060039239131580351938479758051318003415982981938484828033129474719237908210321030170021356946203180480583387459166031617146509064835270304643569706048394402934271129005315979028248003709787721200271759040706591956802612223903103129737025831920701637519740255542513002168873302436131966908715987023230375396401938890221435923906979062902187450047130420609021520109877671783810203019255360507241301917097280597879905018943883244414174200185076954530239881401726588821940355020016135490649259653230156713100665873140501532315766078980697014151022158558832370136846076661500721901330077305751440511012127947966583113360115265079228015875001120936803284338435010803678142889663290102974585654791714200910602825614751090008363509766821926580081197089781747730200737812624379904079007114391622711800190063309097543149704900691380757383874190006240470439479820730056018963316821756600514301630423655266004321932503293679990046850695674689568700413751141223894408003259774660446744720034608034493981431700376578137647691667003118958514004235390021723719629805312400223252715725641554002291529364210026750023392362949614034100236603221083405385002,
  365933373764322090383226355726207477403727979950927990706036238609995573971430352000396154282693603416481768234445867033133420494000266470321060811896839312303182815733226855493031634603768007611110304771548766787112902935190809174878441028254479558273971540271803702735731374402612525463788194804025851846248078402190255671290927492612302436945650980474665023235399186563216720221466216498438190502189232950441706399021530346370170541880203076553396903426201917409754180540477018960474425834033960185162662591857812701727019268781224610016137590680758796300156812544004068100601532772415385224442014153053753843035820136933555519425850401330441485936914167012129412101717690540115321855525819471901121148885597776251010811298580343078500103000884121239260300910689849089177518008366265981544969820081205428501377785700738053085238810081007115050931234404990063326238674775938800691802003341147877006241445422854239610056040124834269523100514344474018248112004322736179181175870046864536736987240400413772736442633411003260073306221397530034611542997418981300376609484946415325003118970097443348520021723425553104850800223243630064703293002291366264493310950023390077214565833500236576444769519469002,
  378687758557877180383336428793736079903728913934020774340036246399470635040890352064231198769285803416995643846613893033137482738456145950321092335776507990103185216389177937920031652537983885518420304902931036285936102936134275746481094028261118190349784810271849455042064430902612834167818419379025872229397990939640255802933521838699402437776850479859868023240527516181786650221497117774682221102191050406557475575021540773964153296860203134880467946647401917727618634913428018977340149963589370185249728719054897001727456235004845750016139721055131676640156913355174287474101533235030432903828014155110493800539950137022057273796772001330809676912158599012130891372344609890115379180639197847201121362876632736318010818982562973907680103027384647889766500910777484694190247008369039812743649510081213815221392899200738294779439076157007115713213562307500063343446679391319100692224640376635386006242423052442721460056061331579818197400514387384958278925004323540672491875640046878384305267321800413794330000548418003260371759726956910034615046973269948400376640761205918808003118981602457622310021723131023633636700223234548559141421002291203336218619460023387794535075763800236549707602291252002,
  391874647052390970383450153067270941803729878208384868329036254435833436873340352130042501910559103417525050713792755033141664777914869560321124766192926433703187684325103674355031670961722241788110305037803678384940602937102120535982394028267923537205798770271896323160313255602613150177292438282025893080202831681820255937501630632176602438625924751042004023245762454431112210221528639344603657902192903049608515838021551396029609130120203194253983129555701918050961313372219018994484669762758410185338172984438019001727899812348814885016141882177905591900157015551493731733201533703682561020815014157192661517272200137111592727377234801331181918248518425012132385917319671810115437059224809954601121578791274387920010826730542901867490103054088534832101700910865735953233832008371831349913006770081222250153282029800738537711583862831007116378478786503640063360721715931854400692648670833910592006243403330808056910056082583562563832000514430363197724360004324345981676119650046892238349393147200413815921857466534003260670020668412250034618546423411379200376671966530808119003118993029237803030021722836043405840900223225471214980128002291040579143258260023385514905074558900236523009495935524002,
  405508294227142020383567646179682885303730873727492978768036262726672580599640352197889348048290203418070443288154335033145970029377889240321158128336969479303190221361156403267031689887867246302640305176256002899219102938094949494036277028274899621033667200271944333197537714102613473657823296972025914408924617730630256075057329399250402439493240140510772023251106109296071860221560793026386785302194791524696850978021562215992384395170203254691627879218901918379870889533400018101191229944371050175428015735209453401728350093739549728016144074459570963460157119150479083546001534178443879086526014159300542933410470137202172784098320301331558249859524184012133895876599706410115495495972890450701121796644504494363010834542974853155390103080997088701753800910954606404895410008374640682865486640081230733509120848400738781886285379745007117046736007927530063378063943348294900693074097053707878006244386260503916820056103880791422909600514473408690325197004325152105182936950046906098839257006600413837511973318216003260968088752457690034622041349734581000376703101025624373003119004377974215640021722540614428778200223216398038194558002290877993024893850023383238318508849400236496350364917517002,
  419603411230790220383689029440628314203731901473911122294036271279802582791840352267832742463675203418632288877233995033150402003976490120321192448074835253303192829364939620230031709329629455929460305318379516292570102939113383029380417028282050557039990690271993511845377965202613804778611026205025936226040119267060256215663947351307202440379170126156003023256560628259770290221593590851056929902196716488073707365021573237335047613980203316211367626317001918714437376767063018102962741528384550175519277596608882101728807173306313240016146298315636214030157224169848565623701534659387274497383014161434426868575870137293808449875519101331938712003397954012135421391249794420115554495607443975501122016451401895663010842420316171366880103108111622702710200911044099602941749008377467901731400060081239265501571897300739027308164873440007117717994337405110063395473520605100400693500921373907077006245371844074841550056125223275132510600514516521389587055004325959041460060550046919965744780291200413859100308137155003261265963687486300034625531754145055900376734164794843313003119015648856765150021722244738702931000223207329034711073002290715577621553230023380964769341104200236469730123952042002,
  434175179538093630383814427947906638703732962460158042215036280103270380476250352339935459647389103419211067994932952033154964309471869790321227751965479631903195510252697751774031729300553755993790305464267973496257602940158056339188159028289380555502741830272043886392546221102614143712516639653025958542245131152940256359386091396185502441284095448590923023262128199001762560221627045066086076002198678607320172259021584463597766808910203378831451929814701919054752146945812018104763445644863140175611979475394589001729271146395386440016148554166683185530157330627524017317801535146586419972592014163594605047219000137386510833431448001332323345285573682012136962603450527250115614062886440239001122238227142993052010850363026828439710103135433456629394800911134219116356343008380313096959386090081247846343884760800739273981852615488007118392262895609540063412950606679458900693929146129518782006246360084056232050056146611022250530100514559701248781292004326766788953942790046933839035913613500413880686822060264003261563645183585840034629017638562410400376765157942874727003119026842074936890021721948418221972900223198264210407500002290553332691623340023378694251549582700236443148688002532002,
  449239265532117480383943970702081074003734057729589165458036289205362017013850352414262092875587603419807274721754095033159660652819109760321264067278483207103198265990534554358031749814527486878450305614017430896880202941229619746626810028296893923871013430272095484737572283302614490636137579861025981368458824933210256506289670583307102442208404244749753023267811050107854230221661168139055521702110067856153057402020595898379199393120203442570418657544101919400907949433583018106593792582434180175706142563363837101729742109584389851016150842438423095860157438541632989729301535640115781052020014165781372124189530137480291147123839001332712190661231619012138519656505298460115674202602009854601122461987002234518010858371569435605640103162963916888585500911224968529376343008383176359316870470081256476249896217300739521911987890097007119069550813014160063430495360560251900694358773652669455006247350982974338990056168044041155851900514602948220945723004327575346109768970046947718682636951600413902271475327548003261861132952533700034632499004920279500376796080574061962003119037957817797500021721651654972792100223189203571113422002290391257993851610023376426759128282200236416605972280171002,
  464811835524345900384077790724455471903735188357305778360036298594609513721210352490879105126049103420421417074505807033164494842796620400321301422012361142503110109859566080458030770885788759919300305767726300519020902942328739045774725028304595068908972430272148335401807956002614845729884639682025100471582818271550246656441920990628402443152492183800251023273611451791661710221695972761376515802110271704149862826020607545337394815510203507447098223575901919752998930318273018108454239086086350175801788340913169001730220160696756688016153163561753045550157547930510859822401536140050623656280014167995025710498340137575160707779067201333105289437847852012140092694847635840115734919580640995401122687746352602324010866446409254381750103190704336521361500911316351441529582008386057779890520700081265155434030386900739771103218981714007119749867229846990063448107941247054900694789806272586469006248344543346253650056189522340048541000514646262258885431004328384711371472180046961604654959765400413923854228282051003262158426707791940034635975855166243000376826932792681381003119048996273995610021721354450935512500223180147122610340002290229353287344840023374162286086888900236390101892242975002,
  480909571225401940384216025178502065403736355451090115701036308279797932196920352569854881369264303421054017385713160033169470792702658920321339844913326404403110401013767195207030792528934966795360305925495405428058802943456095854048823028312488498884899690272202467542695174702615209178060386804025102859573251436940246809911431060514102444116762605406330023279531716628117660221731471852069681402110479474990638600020619408190710114710203573480617883029701920111120651890273018110345248442464090175898938580638866501730705398816357870016155517972813073570157658812702963417301536646467021708593014170235866399270610137671130937531243601333502683277758572012141681864048565680115796218683376842201122915520666101574010874588014207569990103218656055225072600911408371467671449008388957450086703300081273884111298884400740021560203162641007120433221296044730063465788507749128900695222246315583575006249340767679897810056211045926950045500514689643315173612004329194883181747890046975496922921143700413945435041369770003262455526164502750034639448191261739100376857714702941986003119059957631762560021721056808083520200223171094870632021002290067618331569590023371900826450727900236363636363594909002,
  497549685679441980384358815494837599003737560152367074719036318269972632453270352651259782270217603421705612692980849033174592523120563140321379365494517128203110700273985642254030814758931486706010306087428036379488402944612387972298406028320578825806215400272257910967303001202615581168939118656025105301978805951140246966768167392384702445101626660380565023285574200299103380221767678561604101302110691240151602317020631490718738557740203640690406084987201920475370112370398018112267290566189520175997615350977962001731197924302281040016157906113043770740157771206966747450801537159441864819213014172504197791890680137768213364666762101333904414200739087012143287310824016320115858104806013833501123145325514250731010882796854890287980103246820419375321000911501032238021792008391875461631933920081282662497300952000740273287606680619007121119622171205980063483537219084399800695656096105045888006250339658474014320056232614809703375400514733091342152289004330005859982068060046989395456589915000413967013875139588003262752431039483660034642916015181998400376888426408984667003119070842078913070021720758728383483100223162046820864670002289906052886351700023369642374260710400236337209302284977002,
  514749939675673890384506307499848054503738803637193286572036328574446732088930352735166199337518203422376755138559565033179864164754384150321420014055699133703111007858053527740030837591120595740480306253630009741503602945798329752724183028328870767701408000272314696146138617802615961894848376177025107799985267578830247127083500999749602446107503453763545023291741302351391750221804606275796939902110907072336451036020643796763251529520203709096196884317801920845845765889425018114220842087220430176097841019890304101731697838803764802016160328429244453960157885132273941430701537679052866032786014174800326524340950137866419624474494801334310524586597520012144909183042256940115920582879300703201123377176568573321010891073404581018830103275198782047962300911594337398201808008394811906573332040081291490808223602400740526290104746037007121809079024545670063501354234278467000696091357961415662006251341218218157710056254228995973322400514776606291933190004330817640212695970047003300226064784100413988590690243189003263049141051222060034646379328915950000376919068014881979003119081649802846180021720460213795376600223153002978947203002289744656711876420023367386923573285200236310820624506343002,
  532528658650821270384658651548064976303740087117274296832036339202808771877470352821648611557473803423068012379372701033185289961336639030321461821703454871703111323989443394805030861041230582927180306424209726718100202947014652474784046028337369150949799150272372854227237549002616351552252045011025110354803061497150247290930234039490102447134820190370844023298035466967096080221842268619774476402111127045496120406020656330229153848890203778718034413044101921222647542722670018116206386439257420176199638258581998801732205245275289380016162785373631904790158000607812748400901538205378569638998014177124562293733870137965761460101541201334721057177784057012146547629731373180115983657869138345601123611089601091354010899418139252687570103303792503041124300911688290609270867008397766877279066730081300369260841746500740780572381519340007122501601034848140063519239712363585300696528034202177360006252345449392685070056275888493246638700514820188116398494004331630222312700280047017211201474471000414010165447434974003263345655919871350034649838134466147300376949639624637502003119092380990545900021720161266272503300223143963350471523002289583429568687630023365134468460386600236284470246695441002,
  550904750096710650384816002658398854703741411841010623629036350164930593258570352910783643551467203423779968007766032033190874272609939980321504820371870244203111648897408677793030885125385077522330306599278233900386702948262104729249981028346078912660096840272432417050538474202616750341835073298025112967667738839440247458382627021298702448184012322845439023304459183746808070221880679461995442202111351234848839677020669095085452684590203849576277412014701921605876869781982018118224413949209220176303030045270600501732720247991825026016165277403899677910158117652990055351901538738498359046601014179477217885040420138066250723414529701335136055082014148012148202801086777680116047334776780413901123847080484820013010907831537583742970103332602948897216000911782895547763200008400740466438803670081309298072518309300741036139130098029007123197197390420740063537193812377646900696966127141842921006253352354468746070056297593308832233300514863836767201619004332443604719968790047031128352977798200414031738107571970003263641975367245350034653292433848689500376980141342185265003119103035828581750021719861887761518800223134927940982663002289422371217688200023362885003009390800236258158085531095002,
  569897721487625810384978520654338559103742779094573488444036361470975433408750353002650125296331103424513221983251705033196621577384313380321549042843731188903111982817127512928030909860112592262270306778949285175021002949541452810586915028355005103098721110272493417162548160202617158468589836316025115639840472338340247629516426505691602449255523702259257023311014988505639010221919852918337623102111579716900487332020682095366240260420203921691603823715401921995636691369164018120275421927733030176408039668992706901733242952564240853016167804983277988270158236287433663589201539278492464722337014181858609198015960138167899375866749001335555561774908041012149874848478761150116111618639034834101124085165194264179010916314080969293440103361631492925016400911878155905724784008403732767064152890081318277461204368700741292995052504116007123895877289047460063555216693363201100697405639091937815006254361935908274960056319343449861386300514907552195768075004333257785871223780047045051650763870400414053308631613779003263938099116813910034656742229093143100377010573271389477003119113614503109890021719562080202451800223125896755979151002289261481420139440023360638521323058200236231884057933636002,
  589527698742396170385146370308227966103744190203011028537036373131406243657610353097329153447909203425268391075520835033202536476672040900321594522772241949903112325989849981581030935262356287301880306963339405018094202950853481117821826028364152888168864290272555887831301899302617576141904177319025118372608561217540247804408893298375202450349806731300659023317705464082332240221959803356248575102111812569465250654020695335171690510350203995085015446810501922392031490192374018122359914760851880176514690733454047901733773465954873470016170368580594172580158356530994538753801539825441972193820014184269055274323170138270719489370798201335979621102644391012151563924460076220116176514528466008701124325359805916222010924866253532230560103390879515221714000911974075390749978008406743872489110130081327307645439253200741551144859670867007124597649937942290063573308514366426800697846572360986183006255374196163980820056341138923287949500514951334353296191004334072764202035730047058981065052156100414074876980622476003264234026893698290034660187522242457300377040935516043858003119124117199873570021719261845528729400223116869800913178002289100759937660940023358395017519489500236205648081064044002,
  609815445236656910385319721489734502003745646531385825422036385156994237196370353194904154309356403426046109319008427033208623696901915530321641294703277399103112678663048864795030961349483959744830307152567953204575802952198992564079401028373527551941315820272619863061625223702618003575651155911025121167285945502880247983138831149586802451467322520092813023324533241161677000222000545398961425102112049871686594040020708818669069881950204069777842653268701922795167308649854018124478404002670630176623007160922686201734311896493258630016172968670333739610158478403749080976201540379428830117544014186708878324852980138374723247176954301336408277284629604012153270182773561100116242027553597913501124567680498755415010933488542134397460103420348402694985900912070657726018215008409773876370497780081336388844350659800741810593271429827007125302524553702220063591469434436134000698288929254496429006256389137679338880056362979735888544400514995183190757985004334888538146837460047072916566092627000414096443115762525003264529758424665760034663628315352894400377071228179871349003119134544104203870021718961185667195600223107847081190836002288940206532230310023356154485732072700236179450072323045002,
  630782381381150750385498749318627339703747149485944605938036397558827672183670353295460948486669703426847028479300554033214888093214846660321689394098182019203113041090573989400030988139298263747550307346757190963215202953578808994963570028383134499238068200272685377610702592002618440988280535332025124025213729915490248165786615966945302452608541044683418023331500999110405840222042093929776693802112291704058540055020722550093762455430204145791749168849001923205151770383111018126631408469195400176733013196165777801734858353892026625016175605732702006990158601926001415175101540940535858412410014189178403757247120138479922944757359901336841574916181971012154993778359797660116308162859117919801124812143554748645010942181436387768800103450039549085093600912167906650330594008412822872688403770081345521277654756000742071345016497532007126010510362260480063609699612622761300698732712074947014006257406762888581670056384865894262753000515039098658899865004335705106138937480047086858124165883400414118006998300693003264825293438125230034667064610493936100377101451366523351003119144895401020610021718660102538138000223098828602172373002288779820966182970023353916920109439200236153289949350270002,
  652450604782346300385683634321985939703748700515320992912036410348320876479210353399087817274906403427671818531679551033221334652842785640321738857357128361503113413532810247264030101565004716627660297546032348607815402954993771615964967028392979258269749420272752467003958901602618888602912039813025126947760717515500248352434225550226002453773941308249553023338611466826793830222084464096411130002112538148447267660020736533750309592300204223148736917661201923622094102103264018128819454333271720176844733410430200501735412949262963050016178280253686335180158727118285701729701541508846756459369014191677960203622430138586330990695894501337279558971231747012156734867364810390116374925626081505901125058765359353065010950945428665656360103479954354987017200912265825918146565008415890955746620480081354705165656280400742333404832462526007126721616598839870063627999207977366300699177923121772080006258427074216690900056406797404833354900515083080708243538004336522466610536360047100805709583262800414139568589605980003265120631664122810034670496409748234100377131605179579545003119155171274833070021718358598055307400223089814369172446002288619603002212150023351682314815409400236127167630023403002,
  674842911002152270385874562595963248903750301111772207933036423537223520433260353505875570819786103428521168152112232033227968498573002560321789721843048233303113796256839371889030104390043464369920297750521694676285402956444741429080755028403067483327949080272821167551259780102619346647430415285025129936323953266330248543165269857010502454964011505060476023345867423604162650222127671315414483902112789288113031836020750774013464263910204301871150931642901924046105155693357018131043075220651330176958192705467575401735975795133236292016180992725118957260158854001368467541901542084446111366855014194207879548494760138693959907583847101337722274805035761012158493607147798260116442321072117727501125307562402019776010959781014113934720103510094227872540100912364419299620384008418978220173076810081363940729248632800742596777465771708007127435852507905280063646368379550630400699624564691347082006259450074079387840056428774273846501400515127129289086696004337340617992737600047114759292686983800414161127851149515003265415772834336160034673923715211496800377161689722547305003119165371909740590021718056674125940200223080804387460314002288459552403368160023349450664028948100236101083032457279002,
  697982814933893860386071725972230749203751952812450648008036437137630144274050353615917618100214003429395785220990152033234794892299768480321842025906149940403114189536605556896030107290963162453030297960356606609498602957932599678835271028413404957533522840272891516363436747802619815354582325564025132992329277695430248738065021808035202456179249187242916023353271700008507290222171731276655216102113045207732409126020765275329260289950204381981684325702901924477297430589849018133302812307201490177073416317604098401736547005461793750016183743644740416520158982596250957814001542667419406303327014196768496956910390138802822332921418601338169768156908237012160270156288906570116510354451635497701125558551276699323010968688690662290890103540460582112425000912463690580637694008422084760920273400081373228189913968200742861467671717014007128153227343117170063664807286391847600610007263907697474005260475764883126060056450796507371957200515171244351503901004338159558715564740047128718843850238900414182684744504495003265710716682070500034677346528992439900377191705098861169003119175497489433430021717754332650781700223071798662260109002288299668933058510023347221961944115600236075036075003071002,
  721894572812305460386275322189236620203753657200711289939036451161989946867410353729310038778778703430296397339942825033241819238665582520321895808909035496903114593653085004963030110269728718373020298175671643002660402959458248307894840028423997595641978580272963551369143363002620294962075118047025136117231890826130248937220448641249702457420161434394119023360827178770451040222216659947876169602113305993420873526020780042216096648130204463503383339371901924915785096446531018135599214417268440177190429821855641101737126695655927506016186533516263610550159112924171508581901543257853028897141014199360150902779440138912931020025080401338622085152966475012162064674597037040116579031056030721301125811748682348647010977668959035493460103571054838998554000912563643562851997008425210673265714340081382567769723277500743127480214421972007128873750367284170063683316087547929100610052214856887093005261504149025082700056472864111303267900515215425845347311004338979287207973330047142684333477331300414204239231346062003266005462942253650034680764853212696300377221651411882473003119185548197193460021717451575524108300223062797198751050002288139952355047770023344996202770014100236049026676247410002,
  746603204875656010386485555068411014703755415907455890675036465623116842721280353846151656967959503431223752362047590033249047088794084950321951111252431724003115008894459495162030113328353999405860298396604617462392102961022610422470735028434851446907063350273037311332048623702620785712677492209025139312516926558210249140720243823676802458687265026085473023368536795691753440222262473579321153302113571732755707129020795079265837061330204546459652445663901925361684016083810018137932838123203450177309259136088393801737714982588011506016189362849438449310159245006607940058301543855834279703206014201983183197413900139024298838940699601339079272308892027012163877323117691490116648356213894143801126067171423439252010986722322764678400103601878426766085500912664282063721006008428356052812331600081391959691336460100743394819866827905007129597430852315060063701894942062391800610097309545415000005262535228893149130056494977091358015600515259673720247516004339799801897865330047156655732003789700414225791273451245003266300011351431040034684178690006741600377251528764898962003119195524215894980021717148404633748300223053800002067693002287980402433456740023342773380730749300236023054755011566002,
  772134518698778210386702634695457168603757230612514990208036480534199794368210353966544116961616203432178618935772729033256484144116905760322007974401549806503115435556294061444030116468903004021430298623296674104158302962626630767715669028445972698003723730273112835868374179202621287854322107308025142579700037687570249348654859530787902459981086617308375023376403540566601550222309188708433572802113842514799250516020810391144925077330204630874259528212701925815111768727505018140304247846073110177429930525225925001738311984612412411016192232160117136160159378865279971387401544461451380739189014204637939018278850139136938777362782601339541376532708279012165708264140858550116718335291220169001126324836410467522010995849288198672940103632932780615663300912765609916543152008431520995488918190081401404178002411100743663491410680429007130324278079172810063720544008974370100610142548201681156005263569006865925080056517135453077996700515303987925614323004340621101212103250047170633009896474700414247340832698860003266594361647761210034687588041521822800377281337261124079003119205425728005340021716844821861103100223044807077300125002287821018932763220023340553490065372600235997120230350559002,
  798515133216103980386926777606869334003759103046068734935036495908813427338280354090591960981630003433161787062992847033264136260296680910322066440913087803003115873941718873593030119693491060136730298855892364723844202964271276213310815028457367676011568940273190165464781587802621801640210161765025145920327991739760249561116539702232202461302162916902559023384430458117883580222356822164628004902114118430122496916020825982595514810020204716771341127147701926276187673539002018142714015957555000177552470605502589901738917821582574007016195141970320067940159514522151656257901545074793484088766014207324766937945170139250863941559423101340008445127572765012167557661208933680116788973691616363701126584760660465920010100505036451532180093664219342735603700912867630970493893008434705597550548380081410901453559074400743933499636515497007131054301337826230063739263447317611900610187931053772597005264605485312708860056539339201829457800515348368410637546004341443183576523800047184616137653718500414268887871069413003266888513571011170034690992909917868200377311077003696816003119215252915585780021716540829081172200223035818429494224002287661801617800400023338336525027840700235971223021552354002,
  825772503454515340387158206981823669603761034990107578838036511760928935207120354218402708991719903434174068671428447033272009451248581750322126554462891288403116324361615417207030123004286050811540299094539727679662102965957536249457587028469042851460058400273269341496616496302622327328917982993025149335979277813690249778199353684093402462651040869019403023392620648948698510222405391074135875302114399570829035382020841858436617559890204804175407754918901926745032813441353018145162722883040260177676906348764072301739532614868278339016198092808302369440159651999433840233201545695950680574720014210044018953254830139366087557303256701340480525794585416012169425679124679130116860276856513786901126846961297515874010101432606373284290093695739562324090500912970349090661963008437909955579002690081420451742433514800744204849343645565007131787509927202600063758053416119481300610233458329462025005265644666593490130056561588342803294500515392815124287809004342266047415951890047198605085805410800414290432350645042003267182466862551540034694393297367432600377340748095681110003119225005960292200021716236428162571900223026834063651906002287502750253757800023336122479886965300235945363048137030002,
  853934945996268470387397152839591488803763028279933941968036528104925282359030354350086940631255903435216298201867799033280109893262728070322188359874287494303116787134807069281030126403509667975300299339390368520054402967686423493481898028481004841436604750273350406246516288102622865184505661823025152828264724621460249999999230467047102464028277837665241023400977270509313860222454912864926245702114686030579347388020858023565264523280204893111349282573901927221770059243929018147650957205949710177803265086815447801740156487373084322016201085208621057680159791319586639424901546325014008501092014212796050514697360139482622970808531201340957666635612938012171312483959221710116932250265378222701127111455553262421010102367690072120940093727494895611420400913073768158085722008441134166483187530081430055269641969000744477545340145673007132523913155140240063776914074399956100610279130256206469005266686553058942480056583882881015279400515437328015317339004343089691154214250047212599824913146800414311974233609391003267476221265351570034697789206055606600377370350640065411003119234685043375760021715931620967560100223017853984731280002287343864606180580023333911348926363300235919540229855912002,
  883031665192824350387643852242628308803765084805705933089036544955600712284160354485758379323173103436289333210537987033288443929229907320322251903147108606803117262588254169148030129893438694805840299590599542394807702969458974207270114028493260412758848460273433402923388216702623415476627769915025156398828129925390241022661399353065902365434441794376502023409503538079819870222505405271702849302114977904615461796020874482957685786960204983604440397666201927706524094069485018150179315773281520177931574515817213501740789563551945877016204119712202850400159932505321941052401546962075462465422014215581220555996390139600483649674032301341439916156128500012173218243060088190117004899435922143801127378260767429977010103310339321354220093759486805882231500913177892069789305008444378327499554770081439712260789906500744751592442839285007133263520338340850063795845581170624000610324947061145837005267731147050414680056606222821306276500515481907032260752004343914113214152960047226600325570309300414333513482247529003267769776523975190034701180638179942200377399884739762287003119244290345683850021715626409352053600223008878197646972002287185144440969060023331703126444414400235893754486690764002,
  913092780150982190387898549505496191503767206514024272510036562328184569437250354625533978611533903437394054986999880033297018072973086720322317231487420306903117751057253685586030133476406317378280299848326238286653902971276248825754804028505816485212333720273518375681764899802623978480646197686025160049346901563270241045814339630353302366870111509073504023418202725768703470222556886340978396502115275289785973163020891241670505823510205075680346134368901928199421438086726018152748403802399140178061862700729748801741431969429010540016207196866412616960151007557960592575501447607228002241134014218399891523910730139719683183832118301341927323268067678012175143125059278520117078229924317525701127647394388339827010104260606181753130093791716763497740500913282724738818852008447642536192517270081449422942072063200745026995477284187007134006340802321350063814848095433707900610370908971101574005268778450899924580056628608168342447800515526552123435843004344739312017639750047240606558402203500414355050058945859003268063132384575290034704567595950381700377429350497607982003119253822047660500021715320795165653500222999906707270267002287026589524378740023329497806754210000235868005738852959002,
  944149352513375090388161496409781704903769395409563585728036580238349442925310354769534010785852103438531369187953990033305839013687271960322384393337972048403118252885643584407030137154803466229580291011273326510193602873139332496676041028518680134854892390273605369641544328002624554477745150427025163781532710267390241069468915824992902368335876744145298023427078167527593580222609374436227319702115578284571428152020908304841955695820205169365127476899701928700590473551944018155358834989074790178194158079806711401742083832615601344016210317225122479940151022056566161206401448260565561730900014221252429408249050139840235286503820701342419937292700270012177087299881379450117152247325409517701127918873973429228010105218543002687800093824186245918039700913388270094278622008450926890454865320081459187540272498000745303759277758280007134752383881367010063833921776181053300610417016212575304005269828466930150740056651038926615499300515571263236944402004345565285985588770047254618494066153000414376583926192033003268356288594889930034707950081589188300377458748016361973003119263280329347470021715014780251664100222990939518429360002286868199623019830023327295384183508200235842293906782646002,
  976233415055838530388432952425174887403771653556749257949036598702223640408990354917882157849990403439702206487347345033314913620490289580322453438409385701403118768426012001653030140931080188481080291038398733965911802875049335631845467028531858597389015530273694430908121564002625143755048342132025167597132154477900241093635500159268902369832338451814331023436133258182410480222662888243118011702115886989110084903020925677693102173890205264685247036908901929210161470162941018158011231616800080178328489469137730101742745282328381713016213481348781571580151036748697142289601448922183057990654014224139203772098400139962153795159995501342917807963517532012179050938751711860117226957272930826501128192717189771563010106184202423275110093856896737724312500913494532081367001008454231488508175070081469006282764613900745581888687245007007135501658918481760063853066782393125400610463269011747365005270881197454424220056673515100442862400515616040320672988004346392033537970690047268636103251629200414398115046574851003268649244904236970034711328097330857700377488077398706542003119272665370384890021714708366447118000222981976635909590002286709974503857290023325095853074688800235816618911147957002,
  100937800112500850378713184936880943903773983081481087070036617736404000947830355070705604896057003440907523243189355033324248947087189310322524417712099973703119298039911331777030144807747051196110291066225917661568202877007394470150696028545359271603574320273785606592919659002625746605738427322025171497927437363920241118324668868376902371360108974838029023445371454481184300222717446774825824702116201505224051097020943365529094026030205361667574806012201929728266610729737018160706224667380780178464886067241182301743416449407707555016216689804486454320151051636727977466001449592176400326499014227060587782273920131008545267248871001243420985429136748012181034214204523100117302365439717083501128468941814598635010107157637373527620093889849730641189900913601514661412692008457556428903223610081478879397511203600745861388557419449007136254175265342530063872283273038037700610509667594475559005271936644776724210056696036693967959200515660883322293718004347219553093826230047282659356680341200414419643382784153003268942001063509880034714701645422056900377517338747246376003119281977350011740021714401555582792400222973018064453662002286551913934210280023322899207784702600235790980672844155002,
  104361717493987650379002469479538595403776386172904983905036637357969055586160355228135135943700703442148302181484114033333852236550948480322597383589087885403119842098077339795030148787376576641330291094772358037337602879014671652530729028559189722886201650273878944834327002802626363329178709615025175485737056256460241143547206003232502372919812250592063023454796276158767770222773069377427828602116521936445804979020961373740425632200205460339393984066901930255040017164194018163444453932824240178603377459707059501744097466336165659016219943166052203460151066723059568871301450270642499462588014230016958239981810131021014600736868001243929520256220618012183037300091212320117378477537922901701128747565735824008010108138901075503400093923046723558999500913709221811910613008460901810520394270081488807113064467600746142263748633307007137009942282249300063891571407070542900610556212186293725005272994811191667920056718603711160396800515705792189265087004348047843071279980047296688225106364700414441168897610772003269234556825172870034718070728121548700377546532164508132003119291216447067140021714094349483235100222964063808761866002286394017681752020023320705442685028400235765379112992858002,
  107898606278193570379301089977826002003778865085234021510036657584492544836010355390305232308112903443425553097705691033343730926222294990322672389749365438103120400980653411066030152872604710147500291124055953900365702881072356809171679028573357686807742590273974494819049025902626994231037169366025179562416504711090241169314107300163502374512084018595521023464411307018721380222829775735380559802116848388045104874020979707804218198060205560728406884304301930790617776793094018166226568128535210178743993623890874701744788467257301819016223242014084164170151082010119542553001450957679276782192014233008695611702480131033624801584891301244443463432413516012185060371588596840117455299319238810301129028606952567841010109128047044458520093956489222556094100913817657526557826008464267732570083120081498789658566036500746424519129900566007137768969338077830063910931343431045700610602903012410408005274055698984505300056741216155816205500515750766868832727004348876901887553160047310722679316243000414462691553946373003269526911943256160034721435347700107800377575657752940071003119300382839990420021713786749966780500222955113873492264002286236285514509320023318514552161626300235739814152941189002]

/-- Rows from 1400 on. -/
def besselRows14 : List Nat := [
  111552088509903750379609338993938224003781422139620154171036678434057302347360355557354173560535003444740313576246552033353892652731480100322749491302309701903120975077420054239030157066132321280200291154095032023576102883181667159165588028587871072780169060274072306803881744802627639623412851734025183729858987418090241195636584118580302376137572031528832023474220196032610860222887585877082007702117180967056292794020998373285518771040205662862740916169401931335137968998224018169053225007835590178886764933658786701745489587994539516016226586936050383640151097500362514177601451653385673641834014236036184060295380131046377304213458401244962866369293767012187103605207217210117532836575109017401129312083575683595010110125129090001580093990178740921174500913926825815289511008467654294593103750081508827263746984700746708159578882748007138531265810231440063930363241044612000610649740297707473005275119310431111630056763874031558058600515795807308030229004349706727958977580047324762690129084400414484211314783402003269819066173351270034724795506440462900377604715614911501003119309476706822470021713478758845576900222946168263260958002286078717200862550023316326530614890900235714285714261017002,
  115325898954887100379927517982126083803784059726077967994036699925269514339990355729424141147239303446093649728282594033364345257144915950322828744792805086003121564788029774057030161370726739038050291184908356955032502885343848122885144028602737967789383160274172432137915277402628299824964657416025187989996148181080241222526067447748602377796936269800290023484226658456991750222946520180518928202117519782305996850020101737583861728750195766770954646775201931888740692186741018171925091477818330179031722164184608401746200966070291249016229978526354728060151113196270357037701452357861660758822014239099811476324870131059273555957915201245487780905342245012189167178799680670117611095136949981801129598013828285830010111130201317250080094024116799175617900914036730704314745008471061596461088240081518920158927845000746993189981874229007139296841084592270063949867258819975900610696724266738801005276185647797980590056786577341835502400515840913453679927004350537319701008930047338808228396688100414505728143214978003270111019272606780034728151206637212400377633705852712615003119318498225206140021713170377925604000222937226982642264002285921312509545350023314141372459605800235688793718748120002,
  119223888500865830371025593755049100503686780305461859365036722077273364600860355906661324734326003447486656948507973033375096790239667790322910208237236987203122170522247435399030165789223321819420291216515141042282902887560173947330930028617966640204366490274274923285175210702628975161042579136025192344798811188220241249994211983787802379490849159716479023494434476968332780223006599379000773202117864944441238141020103672120838188540195872482043942000901932451568091095839018174842843716552370179178896496799135001746922740725263936016233417386410685400151129100352472379001453071208247673084014242199969509606710131072315017168271501246018259308927374012191251271569044080117690080876369826301129886416046279692010112143318127989250094058304925095817100914147376236152347008474489738376886170081529068575018609000747279615233787209007140065704555473300063969443555648546200610743855143728917005277254713342217540056809326089925182800515886085252393644004351368675528239640047352859265003637500414527242002434783003270402770999723240034731502450596754600377662628568553873003119327447572386940021712861609006691500222928290036168954002285764071209644000023311959072124898800235663338088421384002,
  123250027657837330371059491773023560603689586411498072649036744909766075093410356089216031347367303448920460691203917033386155517908840070322993941160352353403122792700196240771030170324527062903970291248935054676163702889831948344713278028633565543664165880274379833847710057002629665963821428629025196796277735807290241278052900278081502381219995795314653023504847502816162800223067844566981449302118216565957947839020105641523161270880195980025448188070901933023764384435579018177807167291651980179328319523892315401747655052937960707016236904124715864420151145215146062064301453793527492283409014245337053600983330131085503161309675401246554354281306702012193356064077235580117769799705388612601130177308678892027010113164534221832620094092744653735557900914258766469666659008477938820874965110081539272743518732000747567440238137066007140837865625570150063989092290403432700610791133152571687005278326509311534310056832120278931074600515931322650573578004352200793854413570047366915770867418200414548752855736988003270694321114948490034734849240637221300377691483864565647003119336324925214210021712552453882545600222919357428332478002285606993070597650023309779624054195300235637918745522051002,
  127408410160549640371094478825257465203692480652873060886036768443013352432380356277242797376260003450396217266113438033397529926700963240323080004633007074503123431752609446183030174979614232220440291282188236758610802892160505144531911028649543321044195340274487218589133036202630372572437096348025201346484385127900241306714246958205402382985074163911054023515469656994684490223130277205970091902118574761229899070020107646383841442010196089431056594603301933605475892872750018180818757280220820179480023253868670201748398045444378980016240439356927187130151161543216403578901454524922510458079014248511463014316670131098839475063498101247096118959644165012195481738253514430117850257576659312901130470710289203583010114193904597384060094127437527448339200914370905480103140008481408944821801620081549532896517118200747856669907026855007141613333705911440064008813621938432700610838558516828932005279401037944239630056854959911784707300515976625594412992004353033673092437300047380977716938490700414570260666516136003270985669380073350034738191579088398000377720271842797910003119345130460141310021712242914340766900222910429163583143002285450077862197740023307603022705173100235612535612512881002,
  131703256676027310371130588883351815103695465715379687150036792697865250885940356470900503518492703451915114654614032033409228729496609150323168461310820963003124088121087945079030179757534055187020291316295305399254102894547208959431646028665908808503449250274597133458626885902631095333125393140025205997511708504180241335990603022679002384786795375428884023526304931433176950223193919130532277302118939646538060534020109687305358773040196200729214580265201934196851067361384018183878318390194600179634040116156755101749151862757910194016244023705936796200151178087157127430001455265497485722464014251723600868717130131112325458429088701247643606920045248012197628477402973350117931460483689833401130766639554683230010115231484553403600094162385095909798500914483797359124140008484900211416278160081559849266692123600748147309161132758007142392118215811820064028607709087066300610886131459729164005280478301469236600056877844991245416000516021994029897073004353867311654395060047395045074200442300414591765398267030003271276815558426940034741529468291655000377748992605219773003119353864353226660021711932992162868900222901505246330379002285293325354587650023305429262549718100235587188612077381002,
  136138918619089020371167856946674094103698544364122797578036817695772462595410356670352492733988403453478373346678277033421260871325445900323259375473760813703124762258363849293030184661410429413600291351277368845411502896993455865101976028682671039614122040274709635615419979002631834599363515851025210751494938317470241365894560210619802386625883895559441023537357390205417430223258792554382730302119311340100376206020111764899804007200196313950730241706801934798040517821573018186986565083084870179790402966272832501749916651189438608016247657801948661730151194849590496906901456015357679020891014254973874170991340131125962624826139501248196872180607451012199796466215075790118013414461065688501131065115267723314010116277329689973340094197588916140070800914597446214844477008488412722190072580081570222087311530200748439362929688531007143174228582821950064048474710661585500610933852204166222005281558302106013330056900775519900538000516067427902803698004354701707951560460047409117813670051900414613267014584673003271567759414871730034744862910599874900377777646253719118003119362526780134520021711622689124303300222892585680942840002285136735318262390023303258338073880600235561877667119011002,
  140719882078916270371206319072476213803610171944578576211035843458803046200630356875766691288300603455087247199137266033433635535327106260323352813066673223903125454628570201915030189694443680091780291387156036650462002899500674094509308028699839249575275410274824783453742777802632590732014186393025215610612401216980241396438955447612702388503077782819788023548631170758433400223324920076571018902119689962101977526020113879789021576240196429126880907032601935409197042172242018190144221698147570179949145090939473501750692558867644132016251342282555911460151211833167690263301456774609438555972014258262693848325030131139752501197701701248755969204488214012201985890772236510118096125584673552901131366156336176613010117331495909666720094233050552526181600914711856171866972008491946579008047800081580651592232526100748732836150470325007143959674242680740064068414785451986600610981720972697986005282641042064639080056923751500165701700516112927158704239004355536860394411740047423195906397410700414634765479164132003271858500715799630034748191908377389500377806232890102224003119371117916135580021711312006994477500222883670471748808002284980307524068670023301090243777826000235536602700760443002,
  145450771859784820371246012406866100203610499389095960185035870009659605181460357087315732961418403456743024315764073033446362148859259730323448841740788830903126165707516957807030194859912354897900291423953431085470602810207032474674626027717422879512160010274942636628273396502633364099472511158025220577086344076860241427636875369020102390419128929566378023560130485160873350223392324687761419402120075634725833796020116032604754584540196546289419774679901936030475655720628018193352022577985430171011030021325959901651479735759509411016255077792818879740151229040569085304001457543360209704486014261590474781192120131153696628113847601249320952902989014012204196938558439260118179599971925683501131669781783894754010118394039418718600094268771576844467600914827031371317937008495501884068637300081591138015901683800749027733769781289007144748464639266000064088428092225020600611029737987545052005283726523545756380056946772934284999400516158491742964304004356372767392642410047437279323466015200414656260755800453003272149039229126500034751516463999894800377834752616093355003119379637936107910021711000947536776500222874759623036207002284824041743204190023298924974175795200235511363636342712002,
  150336355639176660371286975216656368103610837071653637404035897371696927600920357305177086502231403458447027949713092033459450389756390400323547530896220383803126895982973371773030200161175059264510291461692198799186202810470390251079084027735431580862847030275063256080081449102634155077815609074025225653183774930590241459501660921984702392374803307027384023571859621371272580223461029776608348402120468482183846514020118223988791787570196665470582638776201936662033620913508018196610712195604370171027390249794647301652278333691033868016258864985343884860151246474504546428401458321718545010890014264957635836497850131167796559875981101249891878638656643012206429798467895070118263843781985173501131976010751268296010119465016728198560094304753568282966600914942975970882659008499078739904231270081601681593354921000749324060742436151007145540609224545510064108514789723222000611077903470589407005284814748740576250056969839824331269900516204121600744604004357209427355175760047451368035992872400414677752808388541003272439374724288070034754836579854395500377863205533334357003119388087014537310021710689512508582100222865853139052903002284667937747217600023296762523796056100235486160397424499002,
  155381548246564360371329246922114027303611185302816852318035925568940099166330357529533186410072203460200617428859281033472910192742839770323648951725477360003127645954956935944030205601672332881900291500395522731480102810740293640447526027753875219853846980275186704063079330802634964050955057947025230841217319126950241492046912047420102394370881214415071023583822944526522310223531059136228696902120868630748393517020120454593116589420196786703094701939801937304030477452808018199921045282932810171043998655661015501653088506368155620016262704520362739700151264137713714118201459109794114258196014268364599900953510131182053864621794401250468802228401193012208684660813740330118348863215991979701132284862495767984010120544484655185670094340998113463868300915059694144840800008502677249381556620081612282560217473500749621822031745676007146336117458528690064128675036663914200611126217643373171005285905719830871920056992952172206314900516249816677001665004358046838690177850047465462015128597300414699241600923097003272729506972235440034758152258339119900377891591743384390003119396465325518640021710377703661294900222856951024006936002284511995308007820023294602887180863400235460992907781347002,
  160591416066253460371372868130635844003611544402279595218035954626103101858240357760571567126928703462005189104596468033486751756003768350323753177258020491503128416136029012354030211184928568316190291540087134285564302811016899052896509027772763882066428800275313044170990389602635791410792208615025236143546090975220241525286492443292502396408157532182903023596024898250836080223602436970772397902121276208784329086020122725080058086210196910020177476629401937956628072781201018203283786960823870171060858745310094601653910409397883590016266597065813001710151282032966296900401459907697714618112014271811793914684530131196470124430875201251051779946630815012210961717336774730118434664517289873301132596356392487798010121632500323944870094377506806465918200915177190084101695008506297515702060170081622941152703842800749921022609501048007147134998809216950064148908991738237000611174680727097256005286999438988973410057016109979641145800516295576916488660004358884999805069480047479561232057511900414720727097498445003273019435745430190034761463501863460100377919911347719452003119404773042755970021710065522740351900222848053282066644002284356214197824390023292446058886411300235435861091404862002,
  165971181567763870371417880671374652203611914699124261405035984568607910673780357998485000726053203463862177324666451033500985547917768320323860282405879994003129207051597308681030216914553972649950291580791325764281302811300366483906354027792107877095402290275442341364843539202636637557376418980025241562576581141610241559234534410526402398487441979491122023608470005985517830223675187902092663002121691346781446253020125036122444178650197035455555776044401938619990592940601018206699712870554010171077974070891051901654744200309642195016270543297418969210151300163062365803301460715541280879246014275299648905076710131211046935430986801251640868528403624012213261161214239000118521253971654198201132910511934689411010122729121167106140094414281248846885600915295467996239745008509939642402285710081633657607617759200750221667455958126007147937262752555060064169216813610165800611223292942620129005288095908377761700057039313248196211600516341402263756220004359723909106540970047493665657997747700414742209262308516003273309160817839960034764770312847903600377948164447731970003119413010339563700021709752971485252500222839159917360956002284200594189266550023290292033482789700235410764872501985002,
  171526227967311850371464327630842464103612296532088446310035101542260410129480348243471638184274403465773055430601960033515622313954929320323970344010361782203130019240225348198030222794246573055660291622532963075922102811590859592964867027811917743302091210275574662001003867102637502899066257448025247100763560057690241593905443782826702310060955937594449022621162872339829880223749336976517197002122114177387406559020127388403756780280197163043464795566101939294284593807531018210169609306830150171095348230863089201655590038576828490016274543898773422750151318530832651313501461533437895754597014278828600020853480131225785907904980001252236125172596264012215583187068631760118608637907520358501133227348734347908010123834404926844350094451323049665974600915414532105529498008513603733354245450081644432162352114400750523761559821619007148742918772381660064189598660915527700611272054510456468005289195130150663060057062561979261661200516387292663153118004360563565000562720047507775264201328500414763688059646666003273598681964933770034768072693723955800377976351144730680003119421177388867210021709440051629571000222830270933979536002284045135055283130023288140805553944200235385704175494227002,
  177262104024080750371512253389517166103612690249839067102035104721498898195840348495735154328529803467739336780386990033530673083744298650324083440889866665503130853253949090822030228827794267260850291665337498715239502811888545783857694027832204252663386950275710073859749593002638387852693732165025252760610997629630241629313904941896602310277534990767430022634108184463302550223824909671721967202122544835441145018020129782618289151770197292818657286042801939979679032711439018213694273352330830171112984870547243601656448085638586837016278599561420134140151337139138842880801462361501800270282014282399086566398210131240688666398395301252837607545090097012217927990976569270118696822696213394801133546886522699448010124948409656063010094488633825506313100915534386652981004008517289892765801120081655265054888921700750827309918229420007149551976360380570064210054692261021800611320965650775918005290297106451643840057085856174057556900516433248058827189004361403965892400180047521890021954290600414785163453905619003273887998963677800034771370646934071900378004471539939975003119429274363203490021709126764900982500222821386335972995002283889836569172530023285992369697626100235360678925016882002,
  183184528975018610371561703659479865203613096211254002882035107997342826287680348755484896547459003469762575796939077033546149178314664070324199653888847759403131709658600859880030235019076919841800291709230985025172102812193596286636595027852978415718626350275848646174404843102639292843731595003025258544672999503310241665474885919283902310498566939782379022647310713439760330223901931903708780002122983458006755053020132219471305380100197424816410819683201940676345300437267018217274513013782370171130887682684080101657318504921799672016282710984937129040151355990873890943501463199848404233091014286011552036309950131255756849827716501253445373781974269012220295770477682540118785814752178169601133869145150790020010126071193719578190094526215200497423600915655035896374874008520998225181030280081666156523799242400751132317536736441007150364445016031110064230585066223258000611370026583401829005291401839415205490057109195833634149100516479268394726048004362245110186625100047536009902576757700414806635409577340003274177111592530410034774664174931596600378032525734499656003119437301434722010021708813113021280900222812506127353142002283734698504581710023283846720525356000235335689045918293002,
  189299397612058780371612725523111157403613514785711454240035111372637727718400349022936037363254203471844369043048461033562062217512807160324319065927932196103132589034140738887030241372068505340760291754240087745217102812506186241300289027874251486616242690275990449661038924002640218306463778665025264455554760181600241702403643586388502310724138958151130022660775315703410300223980430033888225702123430184407860634020134699679202037330197559072535149843001941384457253619109018220911147359598720171149060407997369601658201461863298276016286878877020721250151375088962311524401464048594296779270014289666444150201060131270992111589283901254059482492765564012222686724583555700118875620533210465301134194144590025777010127202815795305290094564068806337651000915776484110297286008524728835480596210081677106808243117500751438789429298608007151180334246558870064251189941347759400611419237527809947005292509331166378950057132580958872090400516525353614597858004363086996287129440047550134877423046800414828103891252927003274466019631437830034777953280180691700378060513829464658003119445258775185480021708499097706398300222803630312093114002283579720635506910023281703852662372400235310734463259108002,
  195612785505718000371665367472874914403613946353387225193035114850310276749050349298309730959509103473986356323410111033578424127603344350324441762055233634703133491974995601345030247890839299195540291800392099852250902812826494783221064027896034968262067450276135556548742330902641164684159019772025270495913533272860241740115728933988302310954339838533759022674506934477321780224060430876269435902123885156262481861020137223969672039810197695623379665798801942104191247527380018224605006659094070171167506835763806101659097123932295036016291103953570324440151394436360493415801464907857257005429014293364214887738100131286396119668900201254679992763646106012225101053786705670118966246540688967601134521904932725032010128343334875447320094602196282316681100915898735586175129008528481828882115630081688116147969496000751746730618256843007151999653566886390064271869476148005000611468598703127167005293619583820719340057156011550482697500516571503661992146004363929622597137230047564264917881753300414849568863622524003274754722861829570034781237965156255900378088435925804580003119453146555970460021708184720666425900222794758894127631002283424902736292180023279563760747597500235285815102311498002,
  202130954379158290371719679452219166203614391305560136724035118433370525260310349581833273763863703476190221814405531033595247149054455160324567829498882581203134419090405942421030254579558117504950291847714955699877002813154705130352194027918340617571218370276284040610490099902642132429247724907025276668459619162090241778626992442747902311189260021150828022688510601234597440224141961704758162702124348517518400429020139793081870740770197834505840943550501942835726169255069018228356932523286460171186230804388813401660005660653038321016295386938774041020151414036057007950901465777756264680389014297105320523923310131301970556752090201255306964160718210012227538960069601390119057699319808079401134852446392671479010129492810267685510094640599275338013400916021794632310886008532257310940522750081699184783316157200752056146134320706007152822412499583750064292623829104441800611518110328130291005294732599484301860057179487609008201500516617718480260610004364772987519218330047578399995375863300414871030291475199003275043221066613960034784518232343880900378116292124403436003119460964948068170021707869983605634800222785891877353165002283270244581629860023277426439433588800235260930888558452002,
  208860357636906340371775712897624414703614850044925787466035122124914198932280349873740269186950003478457695222310038033612543844513850750324697357720802441603135371004780684129030261442494606670200291896237245462410702813491004672251399027941180450825580270276435977194603421302643122003502137631025282975957370398110241817953589546211802311428991622664292022702791437182611940224225050260564688102124820414489031774020142407766584279270197975757370393839401943579243471307005018232167778047308160171205236201988494001660927243627693713016299728565195042170151433891072921403301466658411511040192014300890221664623060131317717120335053701255940456733276326012230000646913723800119149985459811525001135185789305669160010130651301596371640094679279439941446300916145665573917566008536055387548431740081710312955209626700752367041016552282007153648620574818890064313453158663524100611567772621244751005295848380253715770057203009134821981400516663998012557844004365617089455299610047592540081362823400414892488139698825003275331514030173520034787794084239753800378144082526059155003119468714122085270021707554888222492800222777029265628145002283115745946560080023275291883386493400235236081747692993002,
  215807646052521630371833520781830350103615322985918880050035125928125054450450341017427079662042603380790552970605540033630327106979437450324830438471759320903136348358060129333030268484021583964850291945988229889739702813835585060956098027964566749138855790276591443256820215502644133878219862794025289421226215096020241858111986187717702311673628465534206022717354654770614950224309724759723018502125300995889810376020145068786400217380198119415982008481301944334927205596267018236038407954440020171224526966977795701661862046559451397016304129573858738630151454004462110015401467549944409665538014304719383282339530131333637522836287501256580531017096897012232486319308667670119243111594226873401135521954130098683010131818868803722400094718238438325600000916270352753153558008539876164936497460081721500905165084900752679420312349689007154478287330308470064334357623236733500611617585800543379005296966928216060900057226576128128819900516710342201842169004366461926806678390047606685147334640100414913942373279989003275619601538360260034791065523350621300378171807231483450003119476394248244580021707239436209686400222768171062773176002282961406606470240023273160087286015200235211267605617477002,
  222979673619639080371893157658272941103615810555044339856035129846277299306140341048367158480061103383190619417107599033648610168169228240324967165847714605303137351806087242650030275708617430120890291996997855379444102814188642303747162027988512064031257110276750517392986058702645168534410808442025296007141698655600241899118964472762002311923266107858416022732205559221057850224396013900723044802125790412875094864020147776915880490420198265520260206090601945102964057851834018239969698741781260171244107088664923001662810245275862365016308590714340750180151474379311577675501468452477607442350014308593274752228990131349733491708885301257227248037744946012234996183761281190119337084401100815101135860961447474978010132995572151014600094757477940370375400916395860529157359008543719749673771750081732748875286269700752993289077430552007155311422311267360064355337381199608800611667550083745122005298088245448941170057250188588965148800516756750990876390004367307497974035420047620835164817980700414935392957303873003275907483378492030034794332552193697100378199466341301281003119484005496385720021706923629254140900222759317272571206002282807226337094890023271031045825364300235186488388442842002,
  230383503570925270371954679706764652203616313191217457302035133882738075793400341080219618964620703385659768101624913033667406607095209760325107636347510022703138382020987443498030283120868535039920292049296769372748102814550376857838992027101302922311593760266913279872376848402646226462987605877025302736636544116310241940991628418432502312178001873703293022747349550085013900224483946872257152502126288819075600481020150532941736704180198414109367778665601945883543382444374018243962538827584640171263980607852099801663772017752407288016313112744855686190151495018741776288801469366134995607629014312512369888372330131366006769553551501257880669313899483012237530448304851390119431910603235426901136202831963006787010134181472219784830094796999623659523400916522193278082421008547586248668060780081744057108265387100753308652375815733007156148035070359940064376392590890787000611717665688213865005299212334020461880057273846517199300000516803224322228604004368153801357446680047634990105374247200414956839856954160003276195159339346620034797595173296604500378227059956050751003119491548035965990021706607469037037900222750467898767730002282653204914515360023268904753711215900235161744022487854002,
  238026414569593430372018144780451252303616831346113290359035138040970010837150341113010517668076203388199923024884500033686730358845859330325251948931915041803139439691557094625030290725471797743790292102916336080784302814920993727033003027103813133589924830267079812671664466102647308164959567268025309612701731441080241983747409801326602312437934883932110022762792122821997410224573553361082873002126796370636364717020153337663007801950198565223053939720801946676857237630955018248017828700254690171284151617442696601664747544136297036016317696432346732000151515925906928817701470291041720878114014316477146980290640131382459114232273401258540856860695096012240089322508326180119527596968425144001136547586506157207010135376629913028310094836805173503124100916649355393131727008551475769166278500081755425847382997800753625515279812389007156988135167649980064397523410611017200611767932830957150005300339195989224370057297549912531772200516849762138272970004369000835356395950047649149940599686700414978283037512896003276482629211158470034800853389197314900378254588176182426003119499022036061090021706290957233835500222741622945070986002282499342115159310023266781205663667200235137034434278402002,
  245915907078270080372083612454079765903617365484525570724035142324533833337700341146766630815400203390813059959477591033706595723582244750325400205084067639403140525523660878743030298527237181715920292157888652548048602815300702560373908027106383179969701740267250199509537497702648414151630243874025316638387596067620242027404074105666702312703166087539399022778538870404573900224664863560003180302127313226255254143020156191891240134890198718901662475564601947483100421226318018252136481069042950171304624263054796901665737006770508555016322342552576058740151537103995355046001471227324196665023014320488088829713770131399092298982697501259207873193082093012242673017485579580119624150309694664401136895246031206076010136581106456400920094876896282960122900916777351284592490008555388418754795870081766855336507907100753943882869997659007157831732170550540064418729998622214600611818351728624957005301468833404321720057321298774495455700516896364381190499004369848598369787840047663314642125454400414999722464360415003276769892785613940034804107202444073800378282051102059377003119506427665365730021705974095514289200222732782415152166002282345637715800540023264660396416201700235112359550546771002,
  254059709910118450372151144073612862003617916084735363092035146737091060753560341181515473497830503393501207793596401033727017375752664000325552508871339914403141640240638257316030306531090326813820292214246565059883902815689717752848126027109014430566903150267424525881988693502649544944798647865025323816804947038450242071979726573133002312973798293498795022794595484948115700224757908175966118902127839547222018695020159096450669964430198875186140000715901948302470506703449018256319421016446390171325402743641279201666740590218057965016327051890216053730151558556229800056901472175110114373609014324545682787599860131415908112533208301259881781329204347012245281745904717210119721577485537667101137245831617813558010137794963399422870094917274652860855600916906185379870608008559324305359791810081778345820097055600754263760235201528007158678835653774600064440012513146478100611868922597508540005302601248305334650057345093102455912000516943030992969815004370697088795959320047677484181617729600415021158102975190003277056949855846450034807356615595336500378309448833956616003119513765092194490021705656885542470800222723946312645581002282192091493558670023262542320715641100235087719298230902002,
  262465786967265970372220802807226002503618483638889733202035151282406756687270341217285319359976903396266449908350469033748010373530920970325708967008660704503142784583719209322030314742075218938410292272023685901032502816088258548164381027111708284497397960267602879098281645302650701076964202108025331151126205041330242117492818356115502313249936203132257022810967759366058500224852718438285379502128375497457901522020162052178408427040199034118044318766101949135167879729960018260567586152333350171346491312116452001667758481286513017016331825238941386790151580285867765484801473134528454789424014328650420791410620131432908359218689501260562644793794399012247915721997424870119819885400156399701137599364471585494010139018262616684420094957941991829575000917035862123525247008563283537247598340081789897543195388100754585152472490112007159529455199284500064461371112365124100611919645653539067005303736442722326590057368932895611601400516989761915407918004371546305032692410047691658530777767500415042589918933733003277343800216431950034810601631219700900378336781472060808003119521034484482480021705339328976784500222715114641148854002282038703225898570023260426973322102400235063113604473665002,
  271142344171700180372292653697724459703619068653390686184035155964352361278120341254105220792538603399110925589465478033769590168483449390325869688923328013803143959312449453398030323165356918681880292331254410472360002816496549143657551027114466171504710790267785348317608631602651883091535481796025338644586560695010242163962152775974902313531686443008477022827661589051040510224949326106983437702128921243555810569020165059924628990130199195739552889738601949981395775142741018264881926769807800171367894275989323101668790869052745953016336663401521910070151602296201843506501474105709499550518014332802799402638330131450094859097004301261250527621587161012250575161568355760119919081003702110001137955865924639928010140251066309052940094998900016307006500917166385977303236008567266223025045770081801510751435743000754908064687148833007160383600396242920064482805954417740400611970521112286571005304874418675840850057392818152994168700517036557090111071004372396245477227510047705837661342032000415064017877910517003277630443663385170034813842251895850100378364049116470096003119528236009786220021705021427469991000222706287404223129002281885472690630410023258314349008965800235038542396622185002,
  280097836593959850372366763716418487403619671649294644588035160786908596259270341292005029643195503310203683147419411032791772615470602400326034786821344961503145165205125359998030331806224350202020292391973934773146602816914818797357308027117289552600295440267972024586452613502653091543042816186025346300485153418550242211406891688071002313819157598379063022844682973582301090225047763481259069702129476954821060198020168120552757432590199360093471405489001950841360314367903018269263406002837890171389615998003547901669837944887930872016341567189916405730151624590560053643701475088784842707165014337003319844593580131467469448066167701261945494360750988012253260282004562350111001917129251633501038315357436175407010141493437004882810095040150450572887000917297761420173470008571272471639803730081813185691038706300755232501992665204007161241280840962210064504317197401214800612021549188958645005306015178176895860057416748873468683200517083416458495460004373246908526273840047720021545082247200415085441945677808003277916879994154640034817078480212479800378391251867193611003119535369835284210021704703182669223300222697464605393271002281732399665908900023256204442562818400235014005602227068002,
  289340975785063960372443201818495698403620293162722740753035165754168446570170341331015418458391103310504642303427772032814573982787542220326204375755313282803146403059238763374030340670093151578700292454218273256217102817343301937263926027120179920716545250268163000876665718202654326997354814967025354122186271218670242259846561955125202314112460247159668022862038018459699550225148063408080770502130042803312689386020171234939664376190199527223242473966401951715270543288125018273712999985652920171411660896784111401670899902482784271016346537425367179230151647172306182340501476083887402368378014341252488040442780131485033977982223501262647610076336361012255971302284965610111012016330937300601038677860593040233010142745437561225470095081695026768466200917429992948361099008575302392380720170081824922608812478200755558469510711800007162102506136853700064525904999368754300612072730098399251005307158723226981180057440725055733874600517130339961787984004374098292576022880047734210153805477900415106862088105578003278203109007618080034820310318768224900378418389824151131003119542436127777760021704384596216007600222688646248148009002281579483930233450023254097248783427400234989503149041735002,
  298880737317299570372522038999930977903620933745282207120035170870340220477760341371167902269199303310814201609582789032838010962550331430326378573693919986603147673691931892881030349762508587973520292518024277063732202817782238272875352027123138801372791710268358372124277849302655590031898891576025362113120571769430242309301062030884202314411706994465957022879732936864789440225250259290908120102130618963885365331020174403975860408920199697172954414129901952603338470566261018278231698013948170171434033447490868301671976937873055544016351574938495518610151670044840125411701477091151432438368014345550814651515700131502790316777853101263356940353744257012258708442989871980111022206414372150601039043397110304087010144007131165043150095123535484919145900917563085075382005008579356094878160890081836721752152742800755885972371129133007162967285894379060064547569518328961400612124064055087546005308305055818054470057464746698322446100517177327541027131004374950396022160190047748403459354242400415128278271161395003278489130504078460034823537770171616700378445463087173043003119549435053691680021704065669746281400222679832335940169002281426725262447180023251992762483692900234965034965021694002,
  308726368539587030372603348355974922503621593964499152155035176139750690181550341412494860934548603311132598839700304032862100681332848760326557501593052124703148977940462637756030359089148528879360292583429652651092702818231872909008152027126167753354523250268558235269047946502656881235885848505025370276786325107470242359790668655558302314717012507711096022897774051449270290225354385098542475502131205614231878384020177628565693817890199869987350162236801953505779106425735018282820502707889680171456738182478905401673069249465265093016356680569398007710151693211598233295901478110712534439650014349898815115863190131520740348581674101264073551302210625012261471926310525700111032488093193046601039411988831830186010145278581334423770095165673572956955200917697042332076808008583433689104344290081848583369042508700756215015711908471007163835629730999020064569310912244848600612175551273136682005309454177932537240057488813799601285600517224379137063649004375803217259878080047762601433606573000415149690460910315003278774944285259270034826760837041001900378472471755999720003119556366779075050021703746404890412900222671022872186832002281274123441737220023249890978489602300234940600978323834002,
  318887396553354400372687205141263287203622274404263020138035181566848314958520341455029562055641203311460078118439004032886860711060397120326741283468577019503150316662680375135030368655826490828230292650472980807024002818692456461958397027129268369406083850268762689294771796702658201210538598363025378616750678322900242411336043665046402315028493552274621022916167796151275090225460475374109048302131802934926237388020180909627550977320191004571183629117501854422810501895124018287480430176957810171479779691965861301674177038062694469016361855167743717720151716676053659179601479142707669426243014354297009687080650131538885973838263401264797509558310052012264261976058707580111042862085753247201039783657730849383010146559851919796440095208111046743152600917831869266645017008587535285373671840081860507708051963100756545604679174270007164707547271123430064591129339032888400612227191966292610005310606091543311410057512926357771739700517271494690561395004376656754683887060047776804048476110500415171098623514732003279060550154300140034829979522004478600378499415930281379003119563231469601920021703426803273219400222662217860269528002281121678247633860023247791891640199700234916201117305708002,
  329373636414964920372773686831590733603622975665283038521035187156206548927110341498806184475555003311796890084901105032912309080165914000326930046470824783603151690737512587586030378468494746925170292719193736077797102819164245178047818027132442276937099420268971835270359994102659550569325091776025387136650942610680242463958240915626202315346269027750673022934920718039866170225568565244172052502132411109467372473020184248094059414550191022439249214401201855354653788521627018292212510186636490171503162624706260001675300506891630488016367099592872271410151740441716710027801480187275169987069014358745923473395550131557229109428907701265528882289477657012267078817676373690111053329115146965301040158425910535725010147851007105150790095250849670090763100917967570444679159008591660994343059700081872495018338309100756877744427166886007165583048146061000064613024956562062300612278986347932909005311760798613715720057537084370869880400517318674141998065004377511006688427720047791011275912186600415192502725234300003279345947915752520034833193827699838700378526295709577740003119570029290572060021703106866513986000222653417303534436002280969389460010640023245695496787534600234891835310524866002,
  340195199570915710372862873187393306403623698365556963991035192912527235570460341543859842378404203312143292060290163032938464285014877690327123920960811540703153101065462505220030388533247504607800292789632306603746602819647501054601579027135691138742890640269185776391699858702660929938195524282025395840195903046410242517678713326006002315670460004784674022954039479188140530225678690427984782802133030324323453641020187644912293594050191040607607908303101856301533218558449018297017786326975000171526891688672897901676439861627865232016372414713892793730151764512135200499901481244554752339135014363246086477017860131575771688793068101266267737197549028012269922678245336070111063889909234008001040536315604583353010149152111409256710095293891214787162200918104150449198724008595810927012268580081884545549645614400757211440118225167007166462141993968800064634997922652898500612330934631065601005312918301097542730057561287836766767000517365917431666001004378365971667283990047805223087899886600415213902732425814003279631137375575170034836403756774506300378553111193357776003119576760406911820021702786596226485400222644621205292561002280817256859083600023243601788796632300234867503486738137002,
  351362502532202180372954846318985399003624443140852447983035198840644091216680341590226610002796303312499548219722608032965345301605090620327323040588242147303154548569118011079030398856324153060100292861830014376483602820142491963405447027139016653739138100269404618024315666702662339955823897061025404731167151468410242572519320038578502316001189762507308022973530858575382450225790887246876419902133660768976832535020191101043983445690191059081004985565301857263676205630522018301897316183028640171550971651745353201677595310423453548016377801409783752330151788890894809788201482314687528511147014367798033633755130131594515662050570201267014142522318398012272793786496987450111074545200664502101040917349177784919010150463229686886200095337237460616631200918241613880684085008599985194724226160081896659552304629400757546696922768793007167344838459802040064657048395076518400612383037028327990005314078600939035480057585536753168704800517413224499672938004379221648013794000047819439456460160300415235298611543052003279916118341129800034839609311885459200378579862480999321003119583424983174550021702465994018996500222635829568819862002280665280225411260023241510762545440200234843205574900928002,
  362886275794394740373049690753597923403625210645201348501035204945526279717520341637943546984642303312865929768291930032992971597547714990327527542371332334103156034193672052859030409444112581739990292935829135925237602820649491776690273027142420557711061400269628467746841307402663781273854007597025413813420442850920242628502333701758702316338583826574684022993401754018665510225905192633777538302134302635969616205020194617465725677350191077864255807858401858241313365884447018306852171507212560171575407342405724901678767063933731564016383260569493696190151813581619441409001483397816018620000014372402304852897430131613462996124534401267768167045115674012275692372822064440111085295726903710801041301549126611465010151784427130037300095380890195382932700918379965357110399008604183909165352600081908837277232625000757883520019280552007168231147195263570064679176531553688200612435293751985485005315241700072883700057609831117617509400517460595285942820004380078034120862060047833660353649872700415256690329136708003280200890621176660034842810495699185200378606549671788855003119590023183541660021702145061494321500222627042397357570002280513459339893880023239422412924802800234818941504166555002,
  374777573010151820373147493504265725603626001551407323970035211232282080623190341687048724344723203313242715121486635032102136314433603160317737566778490810503157558907454811719030420303152571504370293011672923441026602821168780495693403027145904624077391000269857435395320285402665254557149944885025423090887075555450242685650447875376002316682770007824180022101365918413432440216021644142886098302134956120949880615020198195169197901270191096962246784145901859234678559627535018311883438393576370171600203650441598801679955335344597087016388793092042899270151838587971585964901484494084163237458014377059445057368850131632615674865029701268529880092401579012278618669280458690111096142230256932401041688938079793830010153115769269159290095424851214931889200918519209513981428008608407182365882050081921078975933215200758221914594288870007169121077858753710064701382489753869400612487705013930447005316407600424222100057634170927490777400517508029730216532004380935128380971380047847885751561906000415278077851854247003280485454025870090034846007310891612200378633172864921181003119596555171823240021701823800249806600222618259694112217002280361793983773710023237336734838409300234794711203885526002,
  387047780421071640373248344140613428503626816551567053260035217706162653208950341737581251136777803313630190090065041032105054042990850940317953257811902761603159123702477877202030431440139259841560293089405626347414702821700644381846355027149470664669399980261009163310834767002566760484051167806025432567575295849100242743986784560944402317033878441554684022103431029032971780216140279959475811202135621422718531434020201835161375608190191116379936343137001860244008933460730018316992217454017770171625365527656357001681160340400053867016394399886625910520151863913652686853401485603637335850062014381770004224146080131651975699173445601269299351539380787012281572909611063000111107085457894480901042079538798905163010154457321974379590095469122323173917500918659351004363147008612655126700178490081933384900496156800758561885842349568007170014640115318520064723666427294254600612540271025681027005317576303908625240057658556180002131200517555527772052700004381792929186194830047862115622325215900415299461146439800003280769808366754380034849199760148031500378659732159499108003119603021111458610021701502211877358900222609481462255891002280210283938633900023235253723202758500234770514603604884002,
  399708626555990030373352334861590410403627656357605435607035224372565898775720341789581301772333103314028648069493563032108052447151306550318174763093057552303160729594990696017030442861926681778150293169072513327012102822245376090641059027153120530525292460261033117537306957402568299746632248731025442247571727109570242803534901858987502317392041627441624022105536233882577300216261138909849068202136298743276822625020205538464752030140191136122355917984301861269544962912118018322179623996468530171650897988586906101682382297430024823016400081872715032560151889562403509046301486726622355412915014386534537424957610131671545087127650301270076651813635334012284555329241668480111118126161876765101042473374178945523010155809151456733670095513705332106675600918800394498917612008616927854887055420081945755303597185300758903438966028475007170911843636600950064746028501738835400612592991998380018005318747812432107280057682986872201526900517603089350828446004382651434928208000047876349938104931600415320840179734031003281053953456759280034852387846163053400378686227654533331003119609421165517480021701180297963465100222600707704926445002280058928986398750023233173372947122100234746351633067510002,
  412772192202967880373459560570206485003628521701825130641035231237040423680300341843090144038734003314438390234055599032111133682887931710318402233950263266503162377626049548937030454575531388008970293250719894812670802822803274808225119027156856112700217830261057617907205495702569873050967357102025452135042824103760242864318801755218302317757394470095212022107682272271067220216384260471436077902136988287874538635020209306117560918750191156194610943339101862311530495574826018327446788205055820171676806111228835001683621427378432221016405839980164716270151915538004510832201487863187498996040014391353604867244320131691325874107843801270861851898774610012287566165298898040111129265099179441301042870467248927510010157171324269395060095558602061837585800918942344685936402008621225479990087940081958190438497808100759246579175883177007171812698100789080064768468870597454800612645868142793725005319922127891117110057707463000975481500517650714405740189004383510643998299940047890588671102420400415342214918674030003281337889110195490034855571571640545200378712659448941860003119615755496700200021700858060089212000222591938425227595002279907728909333100023231095679013498700234722222222211434002,
  426250920662446400373570118950321515603629413337470809356035238305289605635650341898150167827286203314859725735742270032114299961770596740318635825508192851003164068862099333291030466588136141872630293334395145952846102823374646390779745027160679343092214960261082676353105590002571481117399568757025462234236352760750242926362938037714902318130074320272346022109869896402517180216509684783042365902137690265058850393020213139174002277720191176601881864915101863370212794754591018332794855322263790171703095037769129401684877953831550167016411675149316890340151941844276218633801489013482514524840014396227771935400390131711320112923173501271655023338105506012290605656618184040111140503031718657401043270841172463259010158543907308907690095603814340606420000919085206271374217008625548115417925110081970690559045103700759591311690445068007172717213192565410064790987691324843800612698899669310795005321099252172536820057731984563047365400517698402875804405004384370554787385660047904831793555363100415363585330293193003281621615142750580034858750939293552000378739027641550035003119622024267338760021700535499830300000222583173626229160002279756683490041890023229020636356579000234698126301169169002,
  440157628289238270373684110545543494603630332039308496496035245583175765869200341954804914588887903315292971908038159032117553552347054960318875696779506786703165804395568422903030478907093696813160293420146730060667002823959803506734675027164592195284378440261108305056767202802573124680815083638025472549482895869870242989692224347148902318510221016751769022112099871588001860216637452655246677302138404886723853741020217038704471089050191197349425161708001864445842583634686018338224985833124150171729769975326476701686152103046630086016417588331107232910151968485079604890001490177658633616114014401157609232289040131731529873939098001272456238238320571012293674043753789740111151840726376382801043674519248353105010159926967816420050095649344004807899100919228983978882325008629895874924597750081983255919671522500759937641736201144007173625398603056640064813585121319694500612752086787941106005322279187153678410057756551554977656900517746154699858330004385231165686016760047919079277737832600415384951381721087003281905131371484180034861925951844254000378765332331090007003119628227639397480021700212618757067400222574413310967208002279605792511469880023226948239943704800234674063800267038002,
  454505515331202430373801638840290907303631278604220392613035253076724449795370342013099107534802003315738454474717507032120896781556890870319122010758598405803167585345476887818030491539930655996130293508024222556279402824559065781873716027168596685403550670261134516454093537702574804490922434018025483085197385114020243054332042362150902318897976928882512022114372976460588960216767605580951256602139132368160797937020221005795789061950191218442574381018601865538674089960113018343738355651439630171756836196699261401687444103980803363016423580487172386130151995464316469028901491355868584508874014406143692621034210131751957245205507501273265569273205446012296771568988874270111163278955025827301044081524911175766010161320573378921770095695192899014266400919373682549842031008634268872609828710081995886775394676600760285574547576047007174537264029782750064836261317923714800612805429708314635005323461934702281990057781163973164228500517793969816560883004386092475084394830047933331095960371200415406313040183368003282188437614824860034865096612023895300378791573616200719003119634365774473840021699889418434504000222565657482444289002279455055756901510023224878484754829100234650034650024517002,
  469308177072689300373922810343076751603632253851815575439035260792128818919990342073078682600747703316196507763769272032124332036179197090319374934517508939403169412858058359815030504494351415781880293598078335412512702825172759947387984027172694872995844270261161323240183205502576521312536771554025493845880659879780243120308250121903502319293486999815416022116690003193633640216900185746086517402139872928109014413020225041551439447920191239886741186403701866648965091250584018349336156308075670171784299041121262401688754188320260200016429652589958126270152022785929821521501492548266605090851014411186603267089420131772604332585581501274083089687364856012299898476345597490111174818494556940501044491881731879756010162724791930479910095741362875997854600919519306743397840008638667222919332370082008583381817124400760635115366913430007175452819176606020064859016438420668000612858928639680325005324647496676512860057805821813842598700517841848164393257004386954481372381200047947587220570052300415427670273001593003282471533692563520034868262922572722100378817751595427320003119640438833798890021699565900422269800222556906143629492002279304473009960030023222811365782478300234626038781153508002,
  484579615291011890374047734672072880403633258625056988373035268735754156755520342134790820192861703316667474926572503032127861764314753710319634639304060637603171288107395837272030517778242194803710293690360942113841202825801219990933227027176888861919312730261188738374477764902578275925869319093025504836121053292540243187647190488211502319696898790428679022119051757722421620217035236040472453002140626788807554217020229147091804955750191261687416418737601867776976960544562018355019595141332740171812163915025224101690082590509711216016435805622828498040152050453904271121201493755008456022452014416286927680591340131793473259885426001274908873299968033012303055011595272460111186460126902005901044905613418376448010164139691753479980095787855796753698900919665861336490950008643091040645122560082021345995126157100760986269444458183007176372073753680510064881850640035458000612912583790904981005325835874924959790057830525073086229100517889789681659851004387817182939510260047961847623950574800415449023047593171003282754419425851900034871424886239927000378843866367221144003119646446978238350021699242066274717400222548159297458750002279154044054607600023220746878031714700234602076124557742002,
  500334250034463920374176524643015059303634293790905135561035276914142491603480342198283977734402203317151708162444464032131488476903491510319901300642256250703173212296071725535030531399675150397950293784925103138816702826444787310748120027181180801254077070261216775086006275502580069126822073018025516060596005888670243256375699749050702320108362523956593022121459059969203500217172800068838384202141394176047541898020233323554408797660191283850171170461301868922974712680368018360789895489413110171840436292814225201691429547782128916016442040580175904030152078472266415169501494976251433955214014421445257758983550131814566168984441101275742994508511768012306241422268554530111198204639061304501045322743816134052010165565341479863980095834673530522065400919813351123892197008647540440925804890082034174872093554400761339042038337315007177295037477400340064904764079933172700612966395370472119005327027071286631600057855273746806762700517937794306488916004388680578174998900047976112278522318100415470371331471199003283037094637196000034874582505783586600378869918029939381003119652390368293110021698917917540904500222539416946834940002279003768675144810023218685016520093900234578146611332100002,
  516586931730605030374309296359510533603635360240978913231035285334017339125000342263607923032898403317649568948690313032135214749278060090311017509843499653503075186655832423681030545366912584246270293881825091976779502827103810872895348027185572886230252220261245446878728733002581901727287853418025527524073707443570243326521116366116802320528031131333716022123912744071678180217312922162003931702142175319225258480020237572094158923110191306380657873295001870087227051124197018366648296885026420171869121717641095201692795300188778031016448358467532190510152106845085233172601496212154384851868014426662190829938160131835885219966491901276585528292604922012309457957665681930111210052823128897901045743296908774147010167001810092376280095881817954811088400919961780918235370008652015539246881170082047070270075382800761693438414541997007178221720070349790064927756915218152600613020363586480902005328221087590956810057880067830754341200517985861976833358004389544665467760290047990381156742414100415491715092244341003283319559150452820034877735783970597000378895906681844853003119658269164100090021698593455764613900222530679094628064002278853646656210120023216625776277629700234554250172761918002,
  533352953633741150374446169305811410403636458892234015997035294002288567678690342330813768487305803318161428276281135032139043222754305320311045621706916520803077212448267760330030559688411239007640293981116421689014202827778647371681851027190067359173977650261274767536979961702583774555455784225025539231414767338620243398111289868294302320956060297263311022126413658614963710217455647388222621702142970451395958511020241893883595454710191329284611399413001871270006415344003018372596055252123470171898225802195782701694180090629530238016454760301680695870152135576472483483301497462877717400522014431938329694546910131857432591251811701277436550217769583012312704868866753280111222005476318454901046167296818668363010168449166925805400095929290955419318200920111155550050133008656516451441040810082060032447011736200762049463846908828007179152131261251780064950829302933047300613074488646645019005329417925657780510057904907320517841800518033992630471569004390409443206413930048004654231104838100415513054297616737003283601812790826000034880884723576619900378921832421105596003119664083525432820021698268682484371400222521945743675421002278703677782779730023214569152346754400234530386740322348002,
  550648064620789100374587266442118798403637590687659368855035302926057389490630342399954006155745903318687666891294776032142976606259511890311074484552313501503079290965505602429030574372826687873090294082855872025627802828469661393322577027194666510471907710261304751131015905602585688456122303069025551187573913995110243471174589893563302321392608507022338022128962666867112290217601021564690868202143779809328433752020246290113141382910191352567850176361801872471589028741059018378634443104806780171927754229500878001695584164883470894016461247110769304610152164670583103265301498728583416530633014437274282670809740131879210479729696701278296136439263442012315982408742051300111234063400989209801046594767807537605010169907481668231830095977094426458325500920261479867795137008661043293688455490082073061661426514500762407123617101324007180086280784917130064973981400057898500613128770758291597005330617587297362660057929792211525165200518082186205008104004391274909779297570048018931474140453000415534388915387834003283883855384861350034884029327386018300378947695345794825003119669833611702330021697943599233466000222513216896781822002278553861840166970023212515139782277200234506556245677729002,
  568488482344973480374732714302484608703638756596992048349035312112621480799120342471082543704482703319228675542253053032147017677999261880311104117747674737503081423530921956393030589429017818920050294187101517108918402829177225582907377027199372679554489360261335412022664045402587644291007790575025563397601723808630243545739915381512102321837837094012894022131560647018215660217749091269224197502144603633560331130020250761991356545640191376236277315779901873692254947140294018384764749748415850171957712753715244901697007771639795796016467819934424484740152194131615611623501410000943505702568013442670663637397020131901221100891951601279164363705919631012319290831962407940111246227404671962001047025734277051700010171376824362273630096025230270375248500920412758737890751008665596182517064540082086158172427159600762766423014590777007181024178382192890064997213363509184200613183210128360076005331820074310376190057954722499043530200518130442637874473004392141063574477860048033212858417096400415555718913452300003284165686760442460034887169598191795800378973495553890435003119675519581957640021697618207539962000222504492556719671002278404198614022190023210463733651353800234482758620680884002,
  586890906756981190374882643095379000303639957617451163792035321569480234168500342544254741259642003319784855233495393032151169287163795660311134541142382092503083611499866896191030604866051416261360294293912753694762502829901720814736832027204188255898386240261366764871079842602589642939078918692025575866646380102110243621836703918966702322291910288072035022134208492423155650217899903852103273002145442168454236031020255310745194945860191400295881756154001874932288107849935018390988281482830000171988107200945956501698451162529005429016474479823866341920152223963812516065001410130559781723819013448128092077712970131923466688967139501280041309364007289012322630395009616240111258498300095203601047460220769431368010172857265406337150096073700397975390200920564997044752051008670175234802867680082099322239704417000763127367336638092007181965833799911780065020525350138890800613237806963401141005333025388487905530057979698178179712900518178761866329934004393007902979762920048047498356539643200415577044259799868003284447306746786910034890305538795547400378999233143274977003119681141594886880021697292508926723200222495772726229220002278254687890332270023208414929033440200234458993797372522002,
  605872534003527030375037186806993819403641194774491185142035331304340146270000342619527449183230203320356617484728814032155434355674764650311165775078724384703085856260406651577030620693206839937790294403350330023296302830643536366089676027209115680048390990261398824638611072902591685296876812913025588599955462555140243699494941240962802322754995264550951022136907111848047510218053507448091756602146295662254529516020259937620265435460191424752739419718101876191976379292654018397306361807996450172018943470068532401699914592154394458016481227842024681930152254171460722184601410261723849290361013453647193124241240131945949497055591201280927051361110694012326001356186884430111270876905211307901047898251968051161010174348875555867040096122506728444802700920718199690821491008674780567770208250082112554123532081700763489961888274517007182911256790841270065043917516733602200613292561469575691005334233531611445160058004719243880374400518227143827462256004393875426382712960048061787941150081900415598364922515262003284728715174441560034893437152007385500379024908211735335003119686699808817610021696966504911426000222487057408018703002278105329455420150023206368721020259200234435261707980565002,
  625451070713499510375196483307353730403642469122575213570035341325120344487870342696959046795942703320944384596899860032159815879973298520311197840403670745103088159234082202431030636919980806621340294515476375270689902831403070094488537027214157444659193010261431606596771937302593772278851127424025601602877767622760243778745170889558302323227262194174477022139657429720430590218209950988628417502147164367145029626020264643881095809380191449613014383662001877471611611215878018403720331631707300172050227533555552201610139831812384156015488065063656091750152284758891946687601410394452551105592013459228597603184350131968671797265210201281821668250028344012329403975629332110111283364043222815501048339852698043929010175851725924599140096171651189372843700920872371596601660008679412298992056730082125854084766727100763854211982282804007183860457113631830065067390020013546400613347473852653660005335444505452897660058029785690932281700518275588458188416004394743632170651410048076081584927567000415619680869778014003285009911875278630034896564440645893000379050520856962410003119692194381717760021696640197006578700222478346604764488002277956123095944480023204325104715762700234411562284919490002,
  645644748682106550375360674459308596003643781745968703134035351639958255791150342776609482069415803321548589924535397032164316932850319500311230758480913819103090521876684728040030653556092273167750294630354429613888202832180728618530000027219316095557359020261465126332328922502595904817700133176025614880865160436450243859618504032928502323708884293693091022142460386383256700218369284214195735502148048539307426418020269430811400350210191474882960065815001878771489685486398018410231549479647420172081965438313750601610290260108190023015494992575462044700152315730483133682301410528762894404407013464872942079389700131991635880848031401282725239192690664012332838515314531460111295960542608796401048785047926906371010177365887985813710096221135716774734100921027517700687772008684070546390287960082139222384847442700764220122939178173007184813444532765480065090943016631665500613402544318013005005336658311774571940058054897513962638400518324095695255429004395612518730675700048090379260588500200415640992069862361003285290896682490820034899687407538053400379076071176550876003119697625471196330021696313586719538600222469640319111271002277807068598899500023202284075236090700234387895460789721002,
  666472339963785850375529906230482970403645133759554156703035362257215421412130342858540312311516203322169678154705151032168940665320068250311264551203188884403092945679048274782030670611487425174410294748049474920620802832976927502348971027224594232823913640261499399753500412202598083864716925219025628439474458728830243942146629447291302324200037877339442022145316938352736210218531557686867618902148948438980522364020274299714350872290191500568920425000501880091910567477818018416841391707746970172114163306529679201610442770474219627015502011476208056400152347090656874407601410664672052365280013470580868901584080132014844058337636301283637843964098466012336305239073095750111308667237151320601049233862765107122010178891433573592150096270962255114183000921183642959800407008688755428235964920082152659285795568000764587700087189308007185770228818505790065114576663172720000613457773070638649005337874952329182930058080054707439331300518372665475241106004396482084449670000048104680940886592300415662298491137144003285571669430588000034902806055519209000379101559267999114003119702993234503990021695986675552529600222460938553672236002277658165751614170023200245627709540800234364261168376972002,
  687953172384819650375704328808259732703646526309667329082035373185483460927790342942814745868208003322808105592758399032173690308537809680311299241004874738803095432167859998640030688096344772638380294868627966076789602833792091443783798027229994511897878150261534443096271971102510031039014184507024642284369349251390244026361823664055902324700902409100137022148228058580086550218696822803038240102149864330520285588020279251912851290910191526677331176152401881433178358053719018423551252716838460172146827336523954401610597389592013065015509122876843862330152378843881830229501410802197365532356013476353026247885980132038298659687280101284559562956280347012339804412599305190111321484965961992601049686322466694738010180428434884073390096321132757325910300921340752348817782008693467063149608350082166165050214409900764956948762239203007186730819746845380065138291116152327800613513160315121395005339094428859849760058105257265671235600518421297734554768004397352327714314740048118986598612921500415683600102065632003285852229955392340034905920387432983500379126985228708726003119708297828534040021695659465002660400222452241311029183002277509414341752420023198209757276519000234340659340651593002,
  710107145486958630375884096717877434703647960574955484212035384433590189441570343029497684866732003323464340454994343032178569175762724240311334850874882687403097982906488363114030706021080354962920294992157862964080702834626654466315456027235519644701165570261570272930829442102510258538352123134024656421322337261390244112296961284870602325211660555815900022151194736717245920218865131806334693802150796482460728374020284288749815774890191553214721020417601882795601346154555018430362545169660600172179963803614231801610754144456589160015516327900624662340152410994673159100301410941356343248088013482190068171627710132062002034408872401285490477182269281012343336303461783380111334414573508591901050142452429908272010181976964476712940096371649184838207600921498850860808275008698205570101474490082179739941288964400765327874307925934007187695227099455160065162086532016068200613568706255656892005340316743100094550058130505182808473300518469992409438063004398223246911098890048133296206596019500415704896871205460003286132578094034070034909030406131239700379152349155984462003119713539409822910021695331956561939300222443548593732765002277360814157312230023196176459089516300234317089910767977002,
  732954746913630650376069368943722774703649437767258269216035396010605891662570343118655769024924303324138863168427096032183580664367005210311371404369839865403010059949582966849029724396353057510890295118708663100497302835481060114850964027241172400785223000261606906168111846802510490985407259953024670856216729579540244199985525467153302325732498241122056022154217979386604020219036537800715838902151745167575620684020289411588450512410191580187712890398401884179492061994704018437276700210221920172213579060986944001610913062379778070015523627683233415240152443547592945382401411082166665096169013488092654647468940132085956551712738201286430668280100222012346901181114213280111347456909641781201050602278197788785010183537095275543350096422513507595541600921657943507062661008702971068411822640082193384222785628500765700482075503356007188663460663632950065185963067138538100613624411096044545005341541896773841490058155798452842729500518518749435965688004399094840426330050048147609737701913100415726188767208439003286412713684948110034912136114474011100379177651147034032003119718718134550950021695004151717295300222434860404302589002277212364986625350023194145728313062300234293552812063900002,
  756517069250574180376260309053901444903650959132511777587035407925849756740230343210357420552323603324832166677810759032188728257892202390311408925627573331603010328357517330161029743233070042015990295248351434956963102836355761655425097027246955608499812210261644360066486278502510728483105636476024685595048651784380244289461618582668502326263604700241402022157298810454807300219211094763759787902152710662941048620020294621812539142980191607603025210687301885585167330875635018444295167685549200172247679540577894901611074170993585118015531023372904204240152476507250633130801411224646182355004013494061451617815080132110164600648162401287380218516826088012350499316906100270111360612829621918901051065825458792256010185108900570435740096473727704081055800921818035317126398008707763677751184000082207098159051904500766074777423861602007189635530232251710065209920877822445400613680275039686509005342769891595415630058181137069607482200518567568750046140004399967106646145730048161927164834190200415747475758820472003286692636567868230034915237515329449500379202891298967588003119723834158543230021694676051950591200222426176745227403002277064066618357140023192117560123689700234270047978059888002,
  780815827333111860376457085328173114503652525951676391639035420188896477833550343304672890169211703325544756760093075032194015528153877750311447439380901525803010603682308610064029762542392293149450295381158851963366202837251222278894103027252872156184342050261682652238546871302510971136415421262024700643929100082160244380759973051971902326805172535642640022160438271310697550219388857560142657602153693249998829972020299920826731893750191635467473173885701887012948327621346018451419416369845610172282271753961799801611237498253586584015538516130546673260152509878303462834301411368812919461655013500097131039532740132134628590244783701288339210792554656012354130984093578580111373883194145955801051533120047404117010186692454018363900096525293761339180300921979131338831787008712583518140629490082220882015016112800766450765719507929007190611445603708580065233960120297685900613736298289586652005344000729269542660058206521026778348500518616450287422509004400840043956525180048176248460934083100415768757814881398003286972346583824840034918334611573771600379228069708797977003119728887637270110021694347658738645100222417497618965235002276915918841506050023190091949709900800234246575342458618002,
  805873376032531700376659870889338084703654139541689006935035432809583020466910343401674304270304503326277152346470414032199446137395664970311486970971739773603010886095831624010029782335740283634940295517205227217483902838167915308697821027258924993382158320261721800658040050402511219052385423539024716009086028410420244473915962357215702327357397773576506022163637421147436070219569881955310849302154693214620795316020305310056838461540191663787970032261801888463160631642394018458650934191075380172317362293250830801611403072442357223015546107129871545750152543665456911626201411514685075486364013506200370930969840132159350949654742001289307728644504983012357796457850262220111387268869374408901052004187944755119010188287829644668140096577213674998134500922141236638330056008717430709952029500082234736056187079700766828452336547068007191591216581873670065258080950720416200613792481048349454005345234411491347340058231950317873324000518665393983673210004401713650743298810048190573598980511300415790034904324896003287251843575139170034921427406091193600379253186473439933003119733878725848220021694018973553242800222408823027943607002276767921445403260023188068892272127200234223134839144277002,
  831712728534383390376868843838165394603655801256440254695035445798015563835040343501435713260589203327029885852220858032205023840493840080311527546365526699203011175774071704756029802624799760321050295656566548910784702839106324412767696027265117132078217740261761823666918285602511472340184294394024731696866471364880244568965612236341502327920479921502949022166897337248881240219754224629349880802155710847173948490020310790950124693860191692571528405235901889936134282637256018465991228460011410172352957832002254501611570922172930296015553797557517238440152577873465136996801411662281025617845013512371855419282690132184334128295690501290285856251083642012361496015278141470111400770726958437001052479055279238543010189895101844323650096629489449292528800922304356300123381008722305373908318760082248660548653839000767207842656661642007192574852976037660065282283525172168400613848823518179092005346470939946353600058257424936253101700518714399774212763004402587925392161000048204902551990154600415811306996178329003287531127385420250034924515901773882100379278241689710437003119738807579040860021693689997861159600222400152974559644002276620074219712100023186048383022695200234199726402181940002,
  858357575121844160377084187391954626103657512487777356380035459164576619294340343604033141091111203327803503514494422032210752487213537750311569192165978509103011472897219116709029823421527653648840295799320516484977702840066943819657248027271451647960555510261802739982524563402511731111140427026024747713738703481800244665945612061133402328494622026421759022170219115280266730219941943191051733002156746442586513607020316364975613100440191721825261602831201891432203836932363018473441826101746390172389065126135224701611741076392289751015561588613177561050152612507131424021601411811619322659001013518612274788060160132209580595994568401291273678435980753012365229935418519910111414389644066982101052957748327128528010191514345383205510096682123097085816500922468495427096692008727207631083748020082262655759085298300767588942069092214007193562364600860690065306567999658880500613905325900878258005347710316310482140058282944875121308500518763467594292465004403462866288678320048219235293017490300415832574059562610003287810197859559440034927600101521886200379303235454327957003119743674351258720021693360733124172500222391487461180252002276472376954428060023184030417185789600234176349965816942002,
  885832302477666930377306090026826108403659274666533260075035472919932330439660343709544636023674803328598565738247648032216636024517785600311611935630178346503011777649765551008029844738158113090820295945546577534074902841050278538978764027277931681706013600261844568704909969102511995478782568518024764066294435530960244764893326402340402329080030734121555022173603869583255560211013309619218426002057800300414884845020322033624387259470191751556384965361201892951708424475105018481004273889727870172425691014856897301611913564384895599015569481509730539610152647571308636188201411962718698533807013524922325525270270132235092843132261001292271280672287486012368998499263003660111428126503414035101053440293513200911010193145635399362090096735116639892948500922633659140549815008732137602904149860082276721954729960300767971755970618311007194553761276321340065330934530110041200613961988397847318005348952542250053160058308510127524855800518812597379001291004404338471818303410048233571795154893200415853836063692102003288089054843727880034930680008243099600379328167863912738003119748479196561150021693031180799081000222382826490142272002276324829439877980023182014989997416400234153005464474306002,
  914162013518472220377534745623835648803661089263582717858035487075039959163380343818050322653396403329415647450507106032222678498930521990311655804684007901903012090220602741409029866587208671045470296095325965466025402842056844586223018027284560440290628690261887329324286546502512265558881154012024780761251048337260244865846806784370102329676916349358283022177052733475416010211032774314196424702058872724911484790020327798409900141560191781772217219397101894494991806479095018488680138682294620172462842421597803701612088415776241912015577477473368338220152683070899669723801412115598065804694013531302710371500220132260873380789002701293278749086631832012372801989764528480111441982193285949001053926717411354090010194789047404282680096788472107902814200922799852580228952008737095411147181910082290859403415562800768356289765538008007195549052827664450065355383272377741000614018811210083160005350197619421782880058334120686354185400518861789063266500004405214740366383150048247912031532664100415875092977874477003288367698185371030034933755624853186300379353039014986131003119753222268656040021692701342337722700222374170063752637002276177431466719980023180002096705366500234129692832758074002,
  943372547775631480377770353619013696903662957790925988599035501641155562307520343929632455219354103330255338463157701032228884058954822980311700827937928782903012410803123246929029888981486537837260296248741737939262102843087169212048548027291341198325163530261931041728617951702512541469490376289024797805453864789370244968844803632701002330285492896978383022180566859554189460211052594452173767302059964025093546776020333660868286416640191812480181850305001896062402433732462018496471007661781910172500526354956687301612265660536448372015585577743728312790152719010857911570701412270276519200958013537754138368514270132286924740890669501294296170463336014012376640691848434850111455957607568864201054417046745232003010196444657284172110096842191540000812500922967080904358535008742081177942584660082305068373548767700768742548865648187007196548249085350030065379914382235779900614075794538178243005351445549472784530058359776544343577300518911042581854485004406091670318171170048262255975319103300415896344771510577003288646127733205300034936826954275539700379377849003970675003119757903720901300021692371219186987800222365518184288558002276030182825942880023177991732569179100234106412005450726002,
  973490502337267920378013119157430243303664881802800860654035516629841863563320344044375472233897603331118243844451392032235256957547571100311747034703121213803012739595323445837029911934095030476490296405878816089137202844141791136122800027298277299416219590261975726211350224602512823330991002504024815205878460623640245073926778416878302330905978184000397022184147420005412930211072776179986951602061074514812830577020339622558678779650191843687808491496901897654293505576038018504378488576193060172538749909654839601612445328983885262015593783574025186620152755396187700961701412426773337158144013544277324908125550132313249476355863101295323632248593323012380514892423588020111470053645776211601054911308388848584010198112541301223590096896276983791357800923135349289672844008747095025772427940082319349134114827800769130538690224828007197551359885000900065404528015378753500614132938582319598005352696334040568490058385477694071417100518960357869371488004406969260058837610048276603599720559900415917591414094292003288924343337213390034939893999441214600379402597927189806003119762523706304930021692040812788840600222356870853997613002275883083308865840023175983892860108300234083162917512573002,
  100454325336629350368263253251389842603666862896823707646035532052976325393860344162366052461956203332004984299436940032241801554651823350311794455007987794503013076799908787958029935458440137888800296566824024559733502845221260785602025027305372157553401430262021403479285134802513111266133951052024832969633014612710245181132915992134102331538593862668271022187795606916455630211093325744684590902062204512826284363020345685063528348700191875402734330565301899271023029556280018512404209983469610172577520267500015201612627451788832324015602096231184377250152792231944794623501412585107983368391013550872991781373920132339850161243838301296361222554665774012384424880393543070111484271213076313501055409529367213349010199792776094894850096950730495620406000923304662931447457008752137077471354270082333701954677249700769520264666002871007198558395067351880065429224327421145900614190243542287806005353949974753041230058411224127960519300519009734860264344004407847507973480200048290954877981503600415938832875212431003289202344848640740034942956763288881800379427285880867664003119767082377526380021691710124580331900222348228075097995002275736132707138090023173978572861086600234059945504081153002,
  103655897820980050368520972942863551203668902715160308909035547922759425880910344283693172282467603332916196559518045032248522319788175450311843119615030233303013422624401352114029959568237225365790296731666132356743602846326140538336163027312629258523003900262068094660598606102513405400084640801024851103960698779130245290504137142619502332183565494491016022191512632594034140211114249495059149302063354342867663357020351849988929175680191907632705532507401810091295388176144017520549821498387500172616844698360013201612812059977171692015610516995976455000152829523236835677601412745300108341838013557541867228025070132366729390903260601297409030164101804012388370946667752620111498611220320051201055911736856958428010201485438683184390097005554140597942700923475027043530789008757207456226826610082348127105377438500769911732227155967007199569364478197280065454003473896409900614247709617456001005355206473228505330058437015838278382400519059173488821229004408726412447134160048305309783384563700415960069124544571003289480132119990630034946015248764763800379451912961128728003119771579886876600021691379155993616800222339589849778581002275589330812738220023171975767866687400234036759700470591002,
  106956667811551540368786501470267451103671002945727182944035564251723145508240344408448164464760503333852533781348796032255423834706438970311893060038107130203013777281249757355029984277517881076550296900495894537620602847457004970889525027320052161348706780262115821313006749502513705860468126101024869616242109301670245402082111329416302332841122615283379022195299729886777540211135553883200490302064524333720119232020358118964946931600191940385578680236201810258045386784874017528816994042105440172656730561146047201612999184934115380015619047163152773510152867275223826207901412907369550979375013564284685986385670132393889782121818201298467144533975203012392353384172825780111513074584068653101056417958186967262010203190606463910730097060749992620559700923646446858375505008762306285579366620082362624856934369300770304946815276945007200584277968340040065478865610256103500614305337006788942005356465831075661020058462852817137512900519108673689172449004409605971864783970048319668289250601700415981300131862983003289757705005020670034949069458822592300379476479263997923003119776016386319330021691047908455974000222330956180199119002275442677417974160023169975473183089100234013605442171066002,
  110359620157135680369060068439699406003673165323424197484035581052739668980320344536724778393250303334814665955280863032262510796098964960311944308560080995503014140987941476570029100960063690746320287073406094754922302848614441111464748027327644499759750300262164605432081976802514012777415029910024888513997738713370245515909269646251902333511498801220957022199158152512595370211157245466071473102065714819289768644020364493645951790350191973669322232518101810427389578476529017537207420094375670172697185304805884501613188858407966980015627688041582245170152905493118603525801413071336340156144013571102189343427740132421333973276629401299535655800142584012396372487863822870111527662226621529701056928220839003950010204908357215990600097116320134393816800923818927627069604008767433689422791150082377195480644214200770699913879356644007201603145393539020065503810891868934200614363125908841903005357728049893603760058488735056495684000519158235395291134004410486184611373060048334030368938754600416002525867032413003290035063358738860034952119396423541200379500984885400132003119780392027471430021690716383389817600222322327068490418002275296172315482690023167977684128045500233990482664848158002,
  113867826828473500369341910000750237203675391631399247837035598339030307374020344668619241775149203335803280323584643032269788018377014690311996898250863024703014513967117603753029103555227946052410287250491588670119602849799048697826129027335409983687116930262214469459722017702514326283608289538024907804890490120080245632028817986473102334194931735926475022203089175390931400211179330907105988102066926138680257828020370975710955595790192007492017999611001810599365748317748017545722813948470960172738216469327027401613381112513918908015636440954389307400152944182187320233401413237220696316939013577995125185249450132449064624485567901210061465478152455011400428554735606660111542375076044237601057442552448345297010206638769100722290097172266657454881200923992474619367938008772589792004454840082391839248380000800771096638875764640007202625976614458380065528839474019906300614421076521759854005358993131271826540058514662548156262200519207858540994015004411367049071814310048348395995846499200416023746300010020003290312207037398680034955165064536176000379525429921160143003119784706961603760021690384582212716900222313702516754425002275149815298228810023165982396030839900233967391304342259002,
  117484449381837140369632269027005713703677683702345798567035616124174645935900344804230323865868603336819081808665783032277260436511548410312050862985864042703014896446690124888029106214746833987840287431849348254110702851011440440312511027343352400788194250262265436292774218502514646514330727247024927496728234042220245750484750424024602334891663278599953022207094094979955420211201816977829604802068158636268331791020377566863953327210192041861862636708301810774012193060805017554364911968824000172779831686749786901613575979737884323015645307239093057590152983347749927978801413405043033082366013584964248047837090132477084417759361301210170423298440479011404521883834230580111557214066196504401057960980804412690010208381920663066380097228591662194918900924167093123723089008777774717925474440082406556432591233200771495127268228333007203652781496614840065553951511909386900614479189043276377005360261076790219320058540635283768481200519257543059942177004412248563631000690048362765143409708000416044961400845232003290589135898495790034958206466136411300379549814467002426003119788961339641900021690052506337411100222305082527064458002275003606159505630023163989604232262500233944331296668004002,
  121212741490012890369931395301361422003680043419834118995035634422119923049900344943659400248272003337862793451507724032284933108939891510312106237464860489203015288659961745280029108940157143270400287617578506992161602852252242290036765027351475618000449950262317529291818037602514973607513460250024947597466408602690245871321862812060802335601939533209752022211174229618770480211224710559503220502069412661780421695020384268834268933990192076787169155450201810951367727529365017563135472851421330172822038682190552701613773492940364850015654288247747580910153022995180665028401413574823958866767013592010319168165350132505396057154593201210280448260675077011408652776268377180111572180136760344901058483533851406706010210137890832931020097285297257881610200924342788447316598008782988592140968780082421347306303540000771895384527812738007204683569910326520065579147160652229400614537463670712736005361531888019069740058566653254827734400519307288885641764004413130726673816010048377137785102690800416066171139679580003290865849800763700034961243604207430300379574138618550908003119793155312166720021689720157171827700222296467101465281002274857544692933730023161999304084565900233921302578013658002,
  125056051542460240361023954570627354503582472719677052057035653247190646001460345087010519202348603338935156860575588032292811220539726860312163057231284356803015690845748326664029111733030931463800287807780406010612202853522093712368979027359783583124640340262370772290108359602515307703785163786024968115210663730560245994585766602282902336326010918758552022215330919874702490211248018644789965002070688570370263773020391083376905583760192112276368453648301811131471691076681017572036277886975620172864845274875192801613973685360353970015663385347083475020153063129908547666101413746584278507412013599134106535613630132534002268927529001210391549654255554011412821535220838070111587274233268278701059010239688942081010211906758926456570097342385562681594600924519565916089774008788231539960280440082436212143118286800772297416132899901007205718351730660670065604426575276879400614595900600976907005362805566519063170058592716452675880000519357095951444791004414013536585144990048391513894438263700416087375486746605003291142348604169410034964276481739663900379598402471328777003119797289029415220021689387536119096200222287856241973301002274711630692460880023160011490951434400233898305084740531002,
  129017825316475100361055698441907284603584973591331181148035672614098449278390345234390469703026403340036932671419226032300900085671917650312221358691946162803016103248503988120029114594976301077410288002558641143417702854821647965801963027368280326438080720262425189602682444802515648946522201457024989058219550084160246120322902888515902337064132240640924022219565528895739350211271748339445679602071986722697561758020398012272900376760192148338010863483501811314363954117256017581069131226900900172908259379182768601614176590619276426015672599918650581650153103757417865379701413920344994905251013606336384943708130132562905801688806801210503736838619991011417028465960045020111602497307131618801059541126572684853010213688604647302640097399858703682955200924697430874774736008793503687047204180082451151217212204400772701227569168514007206757136837381790065629789910724453600614654500030562636005364082113841283690058618824868501540600519406964190549794004414896991749883220048405893444967793900416108574412371714003291418632169909880034967305101730715000379622606120758419003119801362641281370021689054644577567300222279249950576716002274565863952361720023158026160207948200233875338753382410002,
  133101608721229280361088398311247152403587548079334278542035692537952201302030345385908851084259903341168901017221795032309205151293682570312281179137200296503016526118448926125029117527638191999900288202019110956420302856151572386299535027376969962338516030262480806035633356602515997481899637233024101043490725341420236248580556677747502337816562763107444022223879442768196600211295906864033270602073307485007705622020405057329683578620192184980767718306001811500084924732521017590235860152115170172952289005699606001614382242724964077015681933358961933880153144883248679953001414096127310677373013613617936042195230132592109426559010501210617019243683605011421273875851641590111617850315668861601060076222914990287010215483508087936120097457718816917671000924876388686925077008798805159420211010082466164803337000200773106824329573157007207799935114900590065655237321847879000614713262155548463005365361531527214250058644978493340370100519456893536002676004415781090552947950048420276410281243200416129767886972008003291694700360407630034970329467185306800379646749662161016003119805376297316380021688721483940824900222270648229235655002274420244267237250023156043307240549700233852403520644947002,
  137311050616609330361122082116039662803590198284779941885035713034268365628340345541678144408894403342331862010543382032317732000143680180312342556761562218303016959711700010588029120532699190594180288406270065748419002857512548677230252027385856691019153720262537646895552710402516353458943143797024103225384637506980236379406871392279102338583566282851942022228274070879674750211320501555661269802074651229212560442020412220381442423230192222213432938310801811688675555351303017599538315344704470172996942262283824701614590676075668377015691387079638928300153186512997328426701414273952629820987013620979548389441470132621615937325073901210731406370279097011425558074370105000111633334222134154801060615557285542625010217291549730921310097515968047384046100925056444734946704008804136083452668840082481253176818981000773514211914323895007208846756452221160065680768963410993200614772187171596830005366643821108738800058671177318075396300519506883920697381004416665831379288750048434662764007248600416150955881056236003291970553039306830034973349581115241200379670833190756546003119809330146729910021688388055597706700222262051079882300002274274771432014360023154062927447005800233829499323405093002,
  141649905708816900361156778584928575003592926366830342543035734118981622740060345701813785584203303343526636236514347032326486354000598540312405530684787159103017404290404213688029123611880355781870288615422157547177502858905273204989277027394944800175394150262595737999145654802516717029581821493024105452377075937770236512850863606223802339365411203737151022232750846287383050211345539869746859502076018332972336728020419503289489530960192260044924635208801811880177349505810017608978371162460360173042227355140403001614801925464109574015700962507557720200153228652316929925801414453842559389052013628422017505156000132651428150597556301210846907790599185011429881373110407540111648949995745856901061159158411995684010219112810450209700097574608549069149000925237604420128299008809496585873055770082496416613558637900773923395830865022007209897610742889090065706384990087632400614831275273953020005367928984108140480058697421333437272100519556935277376626004417551212613896430048449052479813131800416172138365224543003292246190071468940034976365446539338400379694856801663504003119813224338390350021688054360932317700222253458504421085002274129445241945470023152085016236379900233806626098710532002,
  146122037524762610361192517259498606703595734544268042779035755808455758832070345866434240264527203344754065257742814032335474077016883790312470140973420347703017860122874931532029126766942062470830288829588491120635402860330457300418105027404238666743860760262655105683021147602517088348701944314024107725357836867980236648962438020283302340162370612677097022237311226091909050211371029381803789102077409179778558885020426907942636021100192298484286736236401812074632368664237017618557925916341830173088152589906933201615016026081563523015710661084996877250153271306917896516601414635818911177994013635946145923463530132681548905968830501210963533148641257011434244085799734560111664698611715192201061707055180615485010220947371512432850097633642484971250800925419873162672057008814886793765184100082511655390030270900774334381593854930007210952507884940080065732085556460779400614890526657444385005369217022038104940058723710530004603200519607047538632691004418437232641814580048463445531404978800416193315310168454003292521611322969130034979377066483382300379718820589898751003119817059020825970021687720401324045000222244870504728821002273984265492608450023150109569028991500233783783783779067002,
  150731421467311210361229328516539885403598625097087844285035778119494827930520346035661080582514703346015012131199277032344701179129246870312536428662828663503018327483731256819029129999684862656810289048884676021765502861788827566125194027413742758674276250262715776813660401202517467574201646403024110045233420670750236787792402677972702340974722356690384022241956691816498610211396977789255366702078824159038141115020434436257569336090192337540690627533201812272083239140230017628278902150864510173134726372750036701615233013521985607015720484269786269110153314482568447906401414819903703426944013643552743246290620132711981066172089901211081292160654070011438646528309238520111680581051274983101062259276636923748010222795314578196300097693072027122260900925603256401724010008820306834568408570082526969783281571600774747174725144760007212011457780847950065757870817021652600614949941516479283005370507936401720740058750044898204242100519657220636908130004419323889848148600048477841892527689200416214486686670648003292796816661092080034982384443980073500379742724650377333003119820834342225130021687386178147578700222236287082654800002273839231979905490023148136581256382600233760972315998075002,
  155482147953506400361267243590901708203510160036812966989034801069354594039580346209619063752243303347310361937353746032354173819547663210312604435779724124003018806654040265138029133311950364562840289273428879687982902863281126189820339027423461636734787300262777778797566664902517854867046566086024112412927329112730236929392484427222802341802749121143220022246688749791928910211423392913272971102080263666158587771020442090179235863030192377223436817253201812472573159080276017638143246927457090173181957211472681801615452923786172748015730433535457219200153358185095130232401415006119162529055013651242626197100150132742727517241276201211200194615586624011443089018665843290111696598301708478001062815851986342892010224656721703373620097752899356610098100925787759595404484008825756836077836730082542360070933215900775161780753757734007213074470337472170065783740926168837200615009520045046226005371801728692479760058776424428311582600519707454504496504004420211182618077110048492241536965016900416235652465604884003293071805954328060034985387582068975500379766569077912314003119824550450437430021687051692772923200222227708240021005002273694344500063570023146166048361288800233738191632923950002,
  160378425637953620361306294598950636703510466276475349650034824675754260045610346388436212587961603348641022321843609032363898310324587400312674205365189736003019297921462375999029136705622130174720289503341881614755702864808111263773784027433399956351342060262841139591599411602518250391326462279024114829380367598630237073815344630959102342646738509198105022251508931547047690211450282700640349402081728102634329686020449871681228389080192417541956618548501812676145905529877017648152932110811760173229853716632349201615675793285963276015740510371393929650153402420383338756301415194487724754794013659016618674953880132773791168671841601211320250375539080011447571877064094840111712751356378251601063376810594842472010226531675340403020097813126663601114100925973388220838296008831236926444538660082557826531178451700775578205215867917007214141555466006550065809696038207384900615069262436712909005373098400394278960058802849110450851900519757749073543129004421099109336860610048506644438539607500416256812617935822003293346579072368850034988386483796462100379790353967214584003119828207492974040021686716946565412100222219133978622227002273549602849633350023144197965797600900233715441672281472002,
  165424584723590950361346514562648338903510781476055738133034848956888490286340346572243897983420003350007924049956545032373881120006154690312745781498218324303019801580399852798029140182626591536100289738747128624645702866370557110513728027443562469481712990262905887713496142902518654314312820065024117295550952487130237221114595130467102343506983122486478022256418794205059660211477655225644047402083217876134212217020457782766178459540192458505813852635701812882845841579245017658309954658259840173278424602670270701615901658848475551015750716282986178270153447194377844703301415385032037987274013666875551808920850132805174953582457301211441469376215927011452095425878059220111729041214755228301063942181989586953010228420258339584730097873756147362500600926160147774185101008836747234175753990082573369442782680400775996453654779476007215212723081926590065835736307347950500615129168884625357005374397952981421460058829318934595433800519808104276045803004421987668389852600048521050571113079000416277967114718920003293621135886103440034991381152215665000379814079412892681003119831805617008750021686381940885729700222210564300226193002273405006825489000023142232329030331100233692722371963316002,
  170625080362135000361387937434264987203511105889713965067034873931439733883300346761176923397489703351412021574220102032384128877367168160312819209319775365803020317932148506130029143744933986181340289979770791252278202867969254614877044027453954026524792510262972052252584930102519066806517460721024119812415423556400237371344814465185202344383780643021509022261419920885632080211505518691990326702084733400590146903020465825466153680800192500124706572197701813092717923589018017668616336912185650173327678689051722601616130557720384856015761052791783302100153492513083326044801415577774963469564013674820264012818120132836881828877541801211563861627381163011456659989673262880111745468882447746001064511995859584527010230322553950379270097934790016284617500926348043770669297008842287888135088830082588989085083031800776416531620905270007216287983104937770065861861887705902100615189239581506931005375700387918617870058855833890568147400519858520043855539004422876858162508970048535459908586028900416299115927100277003293895476267614630034994371590386424700379837745509452641003119835344969378330021686046677089921400222201999206573727002273260556224827860023140269133535580900233670033670029416002,
  175984496146550750361430598121744393903511439778590634714034899618590856065580346955373611393258103352854293615395196032394648375231721130312894535057396968203020847285052666565029147394559312084390281022654182126726102769605011562532581027464579578265793940263039662880691089702519488041752173694024122380968361700920237524561564353090902345277433916370587022266513921112906480211533881434748890402086275096286943414020474001843060041530192542408468805329201813305807708497429017679074126895531070173377624901417593701616362527572239679015771521435649477490153538382564902483001415772739577564449013682851601040297230132868914775410740901211687437213315686011461265895218685350111762035371230756201065086282056337939010232238645822708620097996230487903424800926537081744610270008847859017542723320082604685737987936900776838444671745907007217367345458923690065888072933300451400615249474719657536005377005706660988300058882393968041567300519908996308677334004423766677040397600048549872424898114100416320259026316522003294169600090174890034997357801375240500379861352351297855003119838825696583620021685711156529412200222193438699378894002273116250845170140023138308374800508100233647375504706471002,
  181507547697946940361474532514737460603511783410992505142034926038038084893240347154975892278314003354335743757176510032405446574381332830312971806050334352303021389954663494108029151133563302512830281047919201035638902771278652985095182027475444177857984560263108749863241218602519918197189386787024125002222911943120237680821406435179602346188251036104003022271702431229490960211562751922323781302087843389953334729020482313989049293420192585367072320220601813522161361209111017689685398610401240173428272272747161601616597606502817137015782123768920308290153584808948674442301415969949173526212013690970416040274320132901276798149261401211812206293276857011465913471498793950111778741699075072901065665070594496135010234168618008256580098058079788922806600926727267249452193008853460751975606640082620459681976690400777262198371868314007218450820071893840065914369598053777800615309874490952615005378313910654062180058908999156538302500519959533002070830004424657123409209930048564288094028084600416341396383694634003294443507228241880035000339788255214900379884900032728846003119842247944789880021685375380551019600222184882780329141002272972090484358140023136350048323290800233624747814387311002,
  187199086349364350361519777511320909003512137062582622635034953210004280952970347360129394895291303355857401054911141032416530607552510570313051070775256433503021946263900692647029154964053421179980281073785604998755802772991021511951618027486552982841607220263179344070567913402520357453423891067024127677211111837210237840181919288310402347116545429537927022276987114816514320211592138758451762102089438714854208617020490764026931458590192629010628410816601813741825662066618017700452252339795550173479629944532324601616835833043517913015792861362560712960153631798422266252901416169427263284760013699177569612696530132933970926339103201211938179101960066011470603049725624560111795588890176732301066248391652507118010236112554961770600098120340155236911200926918605857793847008859093221367647800082636311198099011600777687798292884425007219538416875931330065940752035790129800615370439086842264005379625001333781930058935649445431317600520010130055451094004425548195654768360048578706889993813600416362527970651855003294717197557455100035003317554106003400379908388647943109003119845611859827530021685039350496973800222176331451085420002272828074940556150023134394149613098400233602150537630410002,
  193064102928990240361566371045418778203512501016575326379034981155252537822410347570983539613165303357420320658653396032427907783525726410313132378872522500903022516543217700517029158888184878106880281100267159247841202774742977728926332027497911257200661810263251476989418846702520805994535639387024130406984225361420238002701715710436102348062635944792723022282369663119832700211622050684228616702091061510884064634020499354110592528280192673349389703720801813964848014405752017711376814952524370173531707167963345401617077246162801477015803735804324159560153679357235373505701416371197579242279013707473929864668430132967000213671228301212065365949962719011475334963350916270111812577974986434401066836275573272881010238070541542367370098183013831952517000927111103161418526008864756556009918780082652240567974607000778115250013430056007220630145807141080065967220400234997100615431168698350457005380938980126503210058962344823944239500520060787400089379004426439892163038350048593128786852377300416383653758695522003294990670954631840035006291102013771100379931818291035066003119848917587193190021684703067704927700222167784713282342002272684204012249850023132440674190054000233579583613159283002,
  199107731645377020361614352114944401003512875563936242362034100989510012116910337787691633569944503359025584450877134032439585591307771990313215781173036890403023101130770426800029162908161666591300281127377931329199502776535400543908044027509524373458196840263325180734673348802521264008153634141024133192613082371770238168440460282035902349026846939181923022287851795482460940211652496580163628602092712224661706352020508086425417395280192718393751986498601814191276452195078017722461240211301360173584513305126139901617321885270661209015814748698913208100153727491700314566201416575284076082188013715860372466913310133000367738448597201212193777224250142011480109548078282950111829709990239078801067428752864804951010240042663014836630098246103073411355800927304764771323593008870450886550835130082668248073792713600778544559119143180007221726016805597980065993774845014205000615492063516074019005382255848448997510058989085281151644100520111504967113765004427332211320136730048607553758700065000416404773719422931003295263927297762830035009260435071130800379955189055995711003119852165272049840021684366533507976300222159242568528331002272540477498246190023130489617585202600233557046979861935002,
  205335254077338750361663760810681213003513261003587390691034103945143275465090338010410968219692503360674301699178881032451571704409567890313301329725698089703023700372589607371029167026237621711490281155132297458343802778369187559567921027521397814810806580263400488061270275302521731685520923177024136035188423712180238337458887208149402350009508368952672022293435259783316670211683485468262667102094391309626187290020516963188718092420192764154256057652801814421159647760601017733707709084066930173638057830211257601617569790223140189015825901668141409910153776208192586311001416781710932590605013724337780710589030133034076603754128101212323423388623749011484927141875439540111846985978983373601068025854200881825010242029005050947810098309610143212407600927499596317750138008876176343996346510082684333998311652900778975731202642498007222826039815294450066020415523653055300615553123730181840005383575607708453530059015870805979384800520162282687509976004428225151512342240048621981779672439200416425887824521221003295536966466008980035012225556377106200379978501036712633003119855355059228070021684029749234670600222150705018405732002272396895197672410023128540975340481100233534540576790339002,
  211752103271230270361714638345921061503513657642617531560034106984671926090620338239302919237137103362367609724309332032463873985221497090313389077825454884703024314622756854403029171244717500790130281183544949002150202780245255453300657027533537177303035250263477432376350644402522209221560721927024138935821252067490238509818818445025502351010955880397199022299121832882369980211715026514140230102096099226134023829020525986650167399930192810641589598487301814654546919596796017745118430058562820173692350330734704401617821001326887952015837196351096551820153825513151424098601416990502553490531013732907045564456990133068129937619554801212454314984191450011489788084986470130111864406990611546301068627610421707102010244029653730756750098373537314234207500927695603450212356008881933059710124270082700498624858362800779408771863506154007223930224784088230066047142589575470300615614349530413981005384898259302479380059042701387204867200520213120492122065004429118711126104920048636412823944386200416446996045767226003295809788339696780035015186469037074400380001754326969737003119858487093226440021683692716209034300222142172064470979002272253456909976360023126594743008680200233512064343159863002,
  218363867948418860361767027086879202003514065796497879211034110110402656611990338474533048834891103364106674583878391032476500489488402700313479080041982345703024944243584474760029175565958086248910281212630899090914002782164540364519856027545948172042377910263556047751618766402522696814943679708024141895643188648470238685583182115771402352031530902353475022304913321072272590211747129029160803002097836441557691965020535159092237868560192857866589067126501814891488240264282017756695639460191130173747400508770597401618075559343758328015848634404305260200153875413080366043401417201683571288563013741569065732396160133102530893195228401212586462629840100011494692719944146160111881974080889141701069234052534569519010246044695543915260098437886868657160000927892791837527050008887721165413740740082716742237327941600779843686708249684007225038581663650450066073956196103103100615675741106080738005386223804619104140059069577013457380100520264018311653154004430012888548055790048650846865730140600416468098355027310003296082392800314740035018143176162711200380024949020447191003119861561518212060021683355435750575500222133643708254686002272110162434925430023124650916153417000233489618218348706002,
  225176296825795830361820970583905611403514485789303315525034113324703507686350338716271210548932403365892691772086977032489459470886417360313571392248990742403025589605799134614029179992369311297460281242405489362793002784127998289442606027558636627455605010263636368935925483102523194668156309025024144915806835799710238864816031219166802353071580740116248022310811560536565600211779802472609926002099603430385421859020544482830646335230192905840241614860401815132034244375551017768441601773187220173803218182195851201618333505495448801015860217501898979640153925914547821534801417415278848134371013750324747711278680133137282648920798801212719877022710309011499641391582291750111899688311984897901069845211714504199010248074217390980500098502661097985793300928091167167842911008893540793186850180082733065120183170400780280481350304668007226151120409413570066100856496454501800615737298646061916005387552245036780220059096497673218393500520314976076666097004430907682165016820048665283879283335300416489194724257266003296354779730509470035021095680871953200380048085210721147003119864578478021690021683017909174305800222125119951261846002271967011572606630023122709490349098400233467202141897405002,
  232195303052270460361876513603512717403514917953939238751034116630005443810800338964691656550000403367726886935846091032502759385703855580313666071654180833303026251088729448859029184526415408911870281272884396843169302786136605483502947027571608491587146650263718431368077409402523702987570597108024147997486145625050239047582562636157302354131458670777015022316818417814545870211813056453895345502010140067432230799019553960214803992390192954573687025145901815376236236669261017780358609965138090173859813285946947501618594881468181813015871947335781330110153977024187644123801417631313477693026013759175005849200040133172388408696848401212854568938673313011504634447048193680111917550752500731401070461119304955047010250118306584726060098567862303071040500928290735148669790008899392075467366380082749467558454057400780719161409996899007227267850980519430066127843643744237100615799022338805850005388883581924386320059123463354821859500520365993717584349004431803090364010300048679723838897055600416510285125502181003296626949014081870035024043986288941700380071162991263781003119867538116162270021682680137790755100222116600794971943002271824004123425720023120770461180892900233444816053508242002,
  239426968764239540361933702161240135003515362632374185089034120028803968144180339219973147538833703369610516607650095032516408897628411640313763176829858990003026929080497574543029189170616084550030281304083640961448302788191358871529532027584869834440253960263802271189875814902524221983514817970024151141876794717750239233949136438209302355211524040014302022322935790272883110211846900734778603502010322866239274674019563593628272050650193004078219675359301815624146200173916017792448985814865780173917195873288869101618859729417427969015883825615796841820154028748699708682701417849812787029941013768120762404056340133207851402057421001212990549232809998011509672235815059410111935562477501773501071081806818438324010252177050851453340098633492794132450800928491501506907596008905275145051636460082765949837737330300781159732514524299007228388783339766340066154917790982020900615860912372328587005390217816641228110059150474046454528000520417071164692506004432699111532267620048694166718903846100416531369530896256003296898900535982930035026988095543976800380094182455442958003119870440575811310021682342122905983500222108086240839053002271681139888107320023118833824244692300233422459893044737002,
  246877549763138580361992583555377601003515820175878365633034123523660777291360339482299065285936203371544868955584488032530416882643021790313862767744226346903027623978214891953029193927547713088830281336019590708010102790293276465836959027598426850361734630263887925259389338302524751870345566031024154350196565101400239423983295502432502356312142360354538022329165606584088790211881345231637533102010508789104422441019573385489223104160193054365290521779501815875816804462483017804715080243736210173975376117096411301619128091972672085015895854069901111210154081094850493066601418070802338509206013777162947602500680133243674884343509901213127828839892415011514755109694526010111953724568546544001071707305937208241010254250538332306190098699554890780488600928693471988875644008911190135094613380082782512244195981400781602200297935631007229513927453557580066182079091071883600615922968934213074005391554950537041670059177529736156249200520468208348137196004433595744057240460048708612493675796500416552447912662703003297170634182309990035029928011773463600380117143696522217003119873285999818010021682003865821600500222099576290292029002271538418667693900023116899575147084200233400133600531082002,
  254553480318205830362053206401567571303516290945268262515034127117205456987350339751857527875932103373531264550846837032544792434032702850313964905793355865203028336188181854172029198799844560444100281368708971933846102792443397792367338027612285860470982540263975431164464154302525292866521029483024157623685731465540239617753785437560402357433685410923984022335509827211908680211916400017759951002010697886425246357019583338250908215330193105446509107775601816131301413997877017817159273650386620174034364311147819501619400012242221786015908034444332345080154134069473664037501418294307931704457013786302499699238890133279862136877464701213266418774867161011519883422849210880111972038113717174801072337648513923331010256338857584584400098766050922038745300928896652360341407008917137179110027310082799155064558761900782046570401108112007230643293291849250066209327696811298000615985192211608267005392894984951995690059204630411820286300520519405197927683004434492986326608900048723061137624546400416573520243113580003297442149840302900035032863738119868400380140046807660476003119876074530703790021681665367834776800222091070944734593002271395840263545830023114967709505321200233377837116151624002,
  262461378097711790362115620668309723603516775311157433113034130812137219664300331002884150771982103275571057153177325032559544867504805810314069653833871942003029066126092091464029203790200030364120281402168874795679902794642784325034892027626453315134106680264064827236475814302525845194675524399024160963607454802760239815330574825582802358576531338712552022341970444903749390211952075325669012202010890209362795018019593454402129809460193157333645595615301816390654096570846017829783976248932470174094170871430967301619675533818059258015920368503784336830154187679470667708301418520355605323082013795540365036702090133316416467138315201213406330133341172011525057531805315280111990504207649736401072972866572313708010258442097583059930098832983226366109100929101048406549400008923116410970548290082815878586119696400782492848471725566007231776890828097980066236663760890324600616047582391228326005394237921216693900059231776061193624500520570661643936646004435390836728291160048737512625201335400416594586494649694003297713447398340350035035795277731671900380162891881912154003119878806310662800021681326630238260900222082570205545497002271253404477340770023113038222947281000233355570380250318002]

/-- Rows from 1500 on. -/
def besselRows15 : List Nat := [
  270608049231970640362179877713390033403517273654213674236034134611226684892520331031344895239865403277665634514598932032574683726425150590314177076216347342903029814217240856550029208901367936895530281436416761349286102796892519928421841027640935796483954640264156152564326796602526409081695310119024164371248182541420231001678487578388602259741064761372015022348549485190225380211988381549480619402011085809852385570019603736467720445690193210038632822144501816653929631831172017842591628410671340174154806337462157201619954700780736601015932858031580856400154241931811324410701418748971639143378013804877498105074490133353341208938060301213547574092069701011530277795465269680112009123951564650401073612992307850813010260560347721292490098900354151679001100929306665932249932008929127964907954740082832683096737575600782941040164256532007232914730039208510066264087435890763700616110139659351768005395583760652177540059258966671877277800520621977615900878004436289293650454070048751966930897051600416615646639760407003297984526745935640035038722633763312500380185679012226684003119881481481562930021680987654320394800222074074074078662002271111111111073250023111111111111443400233333333333330210002,
  279000493511533710362246030321257602403517786365422701374034138517317703713160331060588290840395703279816419201876511032590218787172530220314287238819432442603030580896737899121029214136163803017480281471470473293845102799193711308976734027655740020986818640264249447008693905002526984758795705895024167847918055278500231022218916485232402260927676871568880022355249006891924670212025329247293272202011284740614537157019614187009027520310193263573568378484401816921183519912698017855584701009318150174216281373617623301620237557704314844015945504829851495670154296833534428043401418980182555965198013814314861602692480133390639722598884101213690161909446557011535544575120433000112027898453297193701074258058088417442010262693697812948970098968166055373579100929513510761727834008935171975513294070082849568884835469900783391151139931993007234056820905482030066291598874285309500616172864201820664005396932504569928810059286202231326593300520673353043422013004437188355481520660048766424029242250900416636700651023548003298255387773733310035041645809375150200380208408291448791003119884100184946330021680648441365126900222065582551663285002270968959967054290023109186369646855400233311125916052911002,
  287645909724043900362314132741373043203518313846358502070034142533329227906810331090635164784166203282024869438112940032606160064614173980314400209084732160103031366609724858998029219497466185962320281507348239870144402710154748847487182026670872842056661760264344751216529658602527572461599530567024171394951320210190231043161720421015902262136765542914755022362071102633487830212062929143610791402011487055166047214019624808624403971070193317950716714114001817192471990153558017868765695769811000174278606770477869101620524149661347256015958310719708949700154352391748349943301419214015123573555013823853426496806170133428315395131312101213834104925996461011540858234463833290112046828827328083801074908096454979436010264842238093120610099036421304347840900929721588738830855008941248577737038900082866536239400197500783843187066723049007235203173410563500066319198228436684800616235756204039769005398284154271872100059313482726851568700520724787855967215004438088020610180330048780883894807208500416657748501105218003298526030373504360035044564807733407600380231079812317883003119886662562029980021680308992652027000222057095639603955002270826950847910910023107263994213095600233288948069238017002,
  296551701133336610362384240727552815403518856509460526500034146662257225260760331121506879816777303284292479963910804032622517817704773890314516056052446325203032171811597269960029224988218029745410281544068685915584302710395500520467734026686341252717685280264442106635822116102528172430216886464024175013706751368790231064514406322796202263368735437495919022369017899365100790212101192131798331702011692807831212402019635603949705062190193373182511265535701817467852009912325017882137145620705410174341793446184956801620814522227906940015971277541427761330154408613631647297101419450496356715820013833494172084713610133466371640413340301213979414564869831011546219139602962880112065916194814168901075563140122258942010267006059219644510099105122275023844300929930905726998378008947357906889247070082883585449981835200784297153619319339007236353797541389600066346885650596809700616298815850975745005399638711050377970059340808145617177500520776281982869967004438988287425399310048795346502201955700416678790162759720003298796454438143800035047479632010131400380253693667468404003119889168753706710021679969309456303200222048613339180866002270685083556585810023105343980480248700233266799733862665002,
  305725481104425510362456411578334349903519414778317880922034150907176641918650331153225347502508703286620782918532541032639302555211730320314634850397789219603032996968231266773029230611428045427560281581650840078884102710641743952500850026702152388316069400264541555530617205402528784909326308081024178705568076763160231086284614035876802264623998115023853022376091558891490750212140129276572054602011902053753195772019646575658791296520193429281556609738701817747381293480813017895701615050205770174405852447812772601621108721488659343015984407154624521730154465506433676077701419689653519092140013843238086055258740133504811899370458801214126102332339572011551627659072612080112085161683619168801076223221979408024010269185252274422840099174271353369789500930141467609289485008953500098639713390082900716806693175600784753056479105884007237508703288136310066374661292905930400616362043327156350005400996176188265890059368178474643634400520827835353330674004439889154316427690048809811826076307000416699825608829334003299066659861665530035050390285383140800380276249949429255003119891618900545530021679629393048814500222040135651649854002270543357896336870023103426324128870700233244680851060956002,
  315175078878160020362530704178387708703519989087960696231034155271243412943570331185813041825322003289011348741511977032656525041569403290314756664468205047703033842556215092964029236370172119671760281620114143197607902710893599419731842026718313529281803010264643140996308363602529410148257300279024182471944412542690231108480118537452602265902972143632617022383294278408549190212179751816523005602012114848905542331019657726464037551990193486260630642901401818031118311095183017909461700465862950174470794952750573101621406794041980101015997701438439576650154523077475208672101419931514125359590013853086164550714390133543639640156729101214274179818300454011557084163847762940112104566428344562401076888375090685392010271379908764746830099243870934922205700930353280288411546008959675289018123130082917930600209236000785210901334141488007238667900644167710066402525307391827800616425438816669602005402356550958806890059395593700806764400520879447896417474004440790619672809850048824279841119904400416720854812244245003299336646539199390035053296771035977800380298748750624038003119894013142792520021679289244696086100222031662578242558002270401773670736790023101511020849959100233222591362123431002,
  324908545499354380362607179040999722003520579885158843800034159757696522210610331219293013114341603291465787095163646032674196302865063300314881572321395413303034709063085502450029242267594752122650281659478456841437202711151189721399026026734832103941391940264746906975197539402530048401074284784024186314270704275550231131108832195169702267206083212341370022390628291047650000212220071166675485002012331250103844090019669059116848483110193544132686784336401818319122298045386017923420030557958310174536632270099644101621708787005118083015101116229172019340144581334149056000801420176105943149672013863039412229026850133582858358336714601214423658696770369011562589027356521550112124131570360507801077558632696132265010273590120624619760099313923424808017100930566349686748240008965883614414198420082935227121766694100785670693879136082007239831399605982590066430477845968910500616489002503163019005403719836625727380059423053810838273300520931119541066926004441692681884394200048838750522062248100416741877746022378003299606414366987080035056199092157868100380321190163370696003119896351620371440021678948865660324200222023194120166574002270260330683672580023099598066344919800233200531208496580002,
  334934159902363620362685898351657512203521187628728179006034164369860112811310331253688902301348503293985747808460376032692327632959455040315009649764176192003035596987569157185029248306910522184950281699764072024410502711414640230390570026751715691382411360264852898272332378202530699926661980371024190234008175465390231154178807061211302268533764245208784022398095866427795280212261098921080442902012551315017556922019680576408180278090193602910856206184901818611453263884591017937579266666623750174603375842083457801622014748019404410015102479163320523780144640283920694405501420423456995099576013873098842326435820133622471577068428601214574550726394155011568142625493098490112143858257836883401078234028212250887010275815980216078920099384431237766641500930780681746387656008972125211577845110082952606663163387900786132439815428187007240999210173162960066458519060437430000616552734569842792005405086034443210550059450558791326088400520982850216084688004442595339341341270048853223843672734900416762894383269250003299875963242378150035059097251943664100380343574279881456003119898634472884490021678608257199431400222014730278605558002270119028739345190023097687456325536000233178500331782303002,
  345260435158126840362766926012758873903521812789844494233034169111145649153820331289024955517861203296572921842753288032710930599744840060315140974392180813103036506839829120517029254491405585775750281740991718089290602711684078944766133026768972024370756740264961160571624177702531364988812238695024194232644783409370231177698237202387602269886455517202571022405699311215672350212302846855444311502012775102181970924019692281169068835120193662608450088961301818908172001739399017951942103152730240174671037245471232001622324725255507836015103859140171136050144699934328897150701420673595560897064013883265476720484220133662482847287255101214726867750949500011573745336630845270112163747645774402401078914595232684103010278057580330524030099455396798172078100930996282429150307008978400217619296720082970069516757759500786596144850962613007242171342348321340066486649102482599900616616635199472995005406455145655902120059478108628714649500521034639850146258004443498590434133570048867699780760692800416783904697177843003300145293063826560035061991253593810900380365901192262727003119900861839612930021678267420567018300222006271054719358002269977867642269140023095779186513942400233156498673737413002,
  355896124886818000362850327689477508603522455852365368506034173985054131981030331325326039039579503299229042279817776032730017051543486570315275625630427798903037439141716548073029260824439202624600281783182571767250502711959636540260135026786608992321536980265071740452251245502532043856312359061024198311695682514630231201675461066752002271264604771806853022413440969693741230212345326929793709702013002671010335918019704176271164430420193723238961903302801819209340097721603017966511267772562850174739628193015117901622638767418736336015105256355632069740144760292986370617601420926550179339199013893540345993388790133702895747890802001214880621699855267011579397541635329050112183800896035824901079600367528896105010280315014190040770099526822540054976600931213157716617048008984708770009252770082987615975468315900787061814700267657007243347806137049310066514868123673796700616680704574374822005407827171498911310059505703309305226000521086488371797673004444402433553583600048882178308175410200416804908661028450003300414403730886330035064881100314288400380388170992514961003119903033859517590021677926357012421800221997816449644134002269836847197271990023093873252642584400233134526176273091002,
  366850229840342020362936170856811975903523117313160105317034178995178367547820331362617654586125303210195588533272188031749599123649614800315413684774770389803038394427027682107029267309445294721200281826358266416215402712241446423785134026804634644324532010265184685405352458902532736803034905867024202472703695182600231226118963887306802272668667340392738022421323224336447870212388551291176499302013234081806144140019716264627272948750193784816069718198701819515019940442811017981289522056338000174809160534901117001622956923754385944015106671007657010910144821367580395323301421182349650404908013903924489495806800133743713885924752701215035824588681966011585099623877464480112204019177377258101080291379050854227010282588375448729940099598710907124648200931431313610156758008991051006579022080083005246332773084400787529455084432777007244528611547864210066543176275463693700616744942876425791005409202113197815460059533342819256253300521138395709456221004445306867090844240048896659400806164200416825906248188539003300683295144208840035067766795316569100380410383772532516003119905150671240040021677585067780716300221989366464492514002269695967209493920023091969650454197800233112582781454417002,
  378132004659022590363024524847847750003523797682447953980034184145205292236030331400925954984199303210475527138002101031769689245017896060315555235034246656803039373241766255417029273949934036517250281870540901441188902712529644787952967026823057192225158910265300043851015867102533444108029053479024206717239790384940231251037380123313302274099106263375869022429348496394677840212432532276399593302013469395775571853019728549191903755220193847353638535943101819825274730632782017996279661690583230174879646260213768701623279244053136647015108103296264194980144883165873471585601421441023037341473013914418955410976790133784940896769684801215192488519664581011590851969246685830112224403665479527701080987663927712347010284877758194034620099671064352791105100931650756130954210008997427065520651860083022960882709058600787999071731085647007245713768592157990066571573709187448500616809350287058963005410579971968663240059561027144583617400521190361791411161004446211889437417180048911143033582282200416846897432112621003300951967205538100035070648341817580000380432539624103582003119907212413102770021677243554112730100221980921100353670002269555227484387410023090068375701771400233090668431499833002,
  389750964806929690363115460903262639203524497484144815432034189438918353909180331440277760202469803210762906602379978031790300145101638780315700361574348893303040376144411413358029280749493477495530281915753051899974902712824370666632084026841885013761930960265417865155567344202534166055613481725024211046903570040530231276439495939778702275556392413187683022437519246488561350212477282414804100302013708675040081953019741032961824280310193910865722654099601820140168490862477017101148451690442460164951097498414854201623605778656496007015109553423555639200144945695703970083601421702599668765076013925024800819244020133826580444328881901215350625682217807011596654966164174710112244955542979668301081689256468495597010287183256948069530099743885340187116800931871491320037571008100383708538706690073040759919871655200788470670374369719007246903287284145080066600060576061871400616873926987262195005411960749017978610059588756271160993200521242386545824416004447117498985161810048925629181473129100416867882186342071003301220419817707080035073525743039642600380454638638910031003119909219223110100021676901817245059600221972480358293509002269414627827716660023088169424148519800233068783068780631002,
  401716893690399700363209052222106293003525217256218636619034194880199951333670331480700573766601803211057918117207963031811444860843857810315849151561231088403041403706191264481029287711791197730740281962017778297729702713125765991559612026861126655761352200265538199649164009102534902935470847435024215463323763315930231302334251725645902277041004619081445022445837975208725340212522814431078049702013951982649189033019753718976621377390193975366568054748901820459766075372613017102690695285979500165023526520836040001623936578462290511015111021593736530890145008964986787153901421967109140775137013935743091762969370133868636221217085601215510248353453233011602509005596128500112265675999502464901082396191162785882010289504966668951220099817176342190123300932093525238305871008101028120509219350073058643739414117900788944256754921028007248097177640808540066628637027184569400616938673157577338005413344445542762790059616530184720136600521294469900731244004448023694126303070048940117819488176600416888860484505048003301488652884634480035076399002210441600380476680908527290003119911171238948740021676559858410081900221964044239354719002269274168045557440023086272791567849400233046926635820484002,
  414039849964442650363305374013885689003525957551053704603034200473033933042040331522222599563199303211360757614614355031833136743824538710316001694206874390703042456511362174020029294840575997093940282009358636573963102713433975650027629026880790837391288410265661098643697923102535655042743858044024219968158728974080231328730744651300402278553429793804404022454307223726128370212569141248107454002014199382593389514019766610319269563350194040870614821370601820784133180009512017104254987004563360165096945742185827601624271694930205623015112508013134773450145072981714005008301422234581319083247013946574903311832130133911111948950283401215671368898699298011608414481067086280112286566231692116401083108502681409274010291842982752129420099890939841444263000932316863966556440008101675956391109170073076612637046989300789419836619845744007249295449681849920066657303213533162700617003588978099500005414731062730499790059644348870851225500521346611784041006004448930473253442890048954608922677008600416909832300316275003301756666311320470035079268122562965500380498666524424292003119913068597988730021676217678835970800221955612744556954002269133847944296320023084378473743332500233025099075294891002,
  426730175031800750363404503551988730703526718935824053687034206221508157016660331564872759041406303211671625881331663031855389467567411630316158080815230016903043535157493914079029302139679618738300282057799688285503002713749147543662618026900886453473795410265786614451014878202536422678132971052024224563096965890550231355638231265925002280094163062157647022462929574410573210212616275989865957502014450939817258271019779710116706186210194107392499583564601821113336352268386017105841620467609440165171367722070717301624611180087374415015114012890220690170145137753955556821601422505046341156068013957521319628518820133954011378136484301215833999772023221011614371788673296680112307627443243976601083826225877124263010294197401031719540099965178330382343100932541513605512257008102327230148007940073094666909037515900789897415722697227007250498113429635790066686059285964433200617068674628476309005416120601759159610059672212315003158100521398812123537823004449837834759566670048969102466129377600416930797607576981003302024460003843350035082133107335479000380520595577963320003119914911437283730021675875279746709800221947185874896944002268993667330630490023082486466468672600233003300330030717002,
  439798500739565480363506520228479186803527501992876205604034212129817112624370331608680708821230103211990728674576779031878217035009629400316318404829359910203044640255760787328029309613018507532350282107365510989072202714071432648317424026921422577858433300265914800401453569902537206147995746413024229249857631857500231383066130135279702281663707891469841022471707651458010990212664231984343639102014706720232713609019793021540413604310194174947057989902601821447443001445459017107450892909277280165246805166530739901624955086534015024015115536435626887320145203289859896666401422778534618372447013968583434034796690133997338288667429201215998153516755351011620381327096136070112328860844936367301084549395785311466010296568317781834640091003989431124772400832767480275849209008102981955779685380073112806852209087500790376999823453002007251705178909146250066714905395213499800617133930287907126005417513063797201580059700120502483882400521451070846881308004450745777038053000048983598424975214500416951756380174687003302292033869355770035084993959771459700380542468160399883003119916699893572000021675532662362106900221938763631348605002268853626011567040023080596765547679800232981530343005674002,
  453255757278392870363611505610297033003528307320121467768034218202264606262350331653676858717885903212318276840590783031901633786137868540316482761879595879003045772431238844995029317264595604120410282158081208827253502714400985075096413026942408466857127030266045710862710558902538005764447877714024234030191070810190231411024024520527802283262576224014598022480644121526763590212713022766515467302014966790732453133019806547807008462540194243549327209278101821786521408900085017109083105217104180165323270929589592201625303467449117777015117078862168277140145269597654674444001423055076838194961013979762349077986040134041096489911363001216163842766015851011626443497615575440112350267654662497901085278047624664232010298955829717920170091011509029611628500832994770118222895008103640147322061210073131032763940639600790858594688491535007252916656147922370066743841691893012700617199356135142338005418908450003578870059728073418460702100521503387881607248004451654298482682970048998096774384657900416972708592083111003302559387816080670035087850683119564100380564284362882599003119918434103276990021675189827897808800221930346014863149002268713723794422980023078709366794235600232959789057347838002,
  467113181289453050363719543496898803303529135531438019353034224443266512197050331699892390191528903212654486435896893031925654405794379540316651249832738329203046932323209320328029325098502175294000282209972423321618602714737962132533686026963853562741626930266179401259036437802538821845465929306024238905879348599470231439521665098693002284891288611395278022489741694382778760212762662081349906202015231219203562123019820292178838142730194313214548460981301822130640738427971017110738561973048710165400778014819366401625656376596182146015118640384862263700145336685647415797601423334703966356184013991059176597825720134085289820906759501216331080243243752011632558704123696240112371849097462471501086012216797881268010301360033998088700091019076880691831800833223389293296064008104301818847216810073149344942166089000791342206090569791007254132555176014150066772868326492319800617264952348482579005420306761527742490059756071047960602300521555763155128299004452563397487647680049012597489568098300416993654217361989003302826521753308010035090703280633587800380586044276453207003119920114202507930021674846777565314200221921933026369255002268573960486824420023076824266032263100232938076416335137002,
  481382324184388270363830719979373620103529987257083020071034230857353590124530331747359275232070703212999578851335999031950293931656615960316823968842315721703048120585468401193029333118919681375900282263065344376826602715082524389945085026985767497304646680266315928090768531302539654714991805909024243878736797439780231468568972725324602286550374350925901022499003123554027110212813163886858119202015500074541296471019834257964584461030194383958169573823301822479871046746197017112417571494950560165479339576920055801626013868329003722015120221220949089290145404562226206959601423617447249058929013100247503779373110124129922150557089901216499878762728178011638727353138256850112393606405555366101086751938892359327010303781028224454620091026693237546037200833453343981765074008104966984463406280073167743685373713200791827839808799375007255352886025927790066801985449376653800617330719105778008005421707999509644220059784113375870550100521608196594734684004453473072447558130049027100545776190400417014593230156956003303093435591390760035093551755572405800380607747992046310003119921740327060560021674503512571988100221913524666773140002268434335896706350023074941459095701900232916392363394865002,
  496075060683695000363945123501071321303530863144114982713034237449174371006180331796110295688910703213353780938941339031975567762394130080317001021399927035103049337886643469024029341330121681329090282317386721499668402715434835741975226026100816009548578390256455348954205900002540504703038982443024248950610569166360231498176041240022602288240371624035053022508431206994175270212864542357184334202015773426663042267019848448519874697390194455795847574613601822834283294091542017114120445878409050165558968923313968501626375997597511954015121821589912346990145473235860384693601423903338215191613013101401106329245700124174997377826585601216670251230142153011644949853816304160112415540818371430501087497249680888609010306218910444473780091034358354344721600833684640384387149008105635658315068750073186229292605594700792315501628624111007256577658732575190066831193210786327400617396656584427640005423112165079742770059812200386937859300521660688127594932004454383321757453080049041605918299899500417035525604699394003303360129241741400035096396111199942000380629395600489359003119923312612417940021674160034121076000221905120936958691002268294849832312050023073060941828474300232894736842103200002,
  511203597579033770364062844919779878703531763856826654988034244223498112766380331846179063055621303213717325141713955031100149166600650790307182512387689082603050584910515931136029349736475776308750282372963875236982902715795063474360212026103104137906331060256597722561831997802541372145800521286024254123381197429410231528353140315394902289961827636720729022518028787755636750212916811885737826402016051346522454133019862867247900031900194528743451306228601823193949354932702017115847501039083200165639679515755048601626742819953658336015123441713499654310145542715101231211101424192408678557761013102566839321614080124220519431936946201216842210643078468011651226617967834780112437653582584317501088248185122347716010308673779152275710091042072486250352800833917284722006579008106307854582837690073204802063456980000792805197341796048007257806883333218970066860491760835884700617462764961378488005424519259359005280059840332065770424600521713237680756489004455294143812807600049056113582470502600417056451315306288003303626602616828210035099236350785119700380650987192502546003119924831193750770021673816343411717700221896721837787604002268155502102192970023071182710084458000232873109796184692002,
  526780482725192750364183977571490552903532690077188664382034251185217827496030331897600038720008203214090449626363699031102808178834623000307368549131812030203051862356350781401029358342445592422180282429824708836628802716163378330929247026105442157041302910256743108762891271602542257385758907686024259398963168975200231559110718350156602291715298762086245022527798754672156660212969987088367146502016333906123774573019877517600041484830194602817064075743201823558942028798433017117599056755421780165721484971953517901627114391557356632015125081815743497220145613008582674301601424484690740120973013103744817725077700124266492272565192701217015770091588223011657558060069510150112459945952143480801089004781362401744010311145733290008060091049835889419588300834151283235581714008106983587483552900073223462298075706900793296932746353022007259040569867423310066889881249513342600617529044413124983005425929283458914330059868508396837147600521765845181146495004456205537009542520049070623513659642500417077370336380077003303892855630171760035102072477601818400380672522858698699003119926296205918520021673472441638959600221888327370099502002268016292515207770023069306759727452600232851511169511814002,
  542818614267455760364308617335789570703533642505304180757034258339353381803260331950408554689850503214473398419079344031105535466183031840307559241457325655803053170939233018361029367152592803411950282487997720135487102716539954581865343026107831109633526090256891568564324874902543160771797728126024264779305504131690231590459405406903202293501350684982625022537744043051017120213024082806576934802016621178536336086019892403076503425950194678032986332748401823929335051221516017119375436711819820165804399067215571301627490769182474369015126742122982237410145684125021992457201424780216790263945013104935157471506500124312919890042420501217190942758721493011663944597278416480112482419188306590101089767074734199851010313634872249171940091057648821005445300834386642186211373008107662871270270420073242210297161579400793790713646594764007260278728377000290066919361826679350500617595495115708188005427342238481470780059896729364468165300521818510555572451004457117499744032390049085135687279337900417098282642408547003304158888196340600035104904494928831800380694002689583166003119927707783469610021673128329993773700221879937534712006002267877220880522530023067433086631156000232829940906104429002,
  559331250110351130364436862702916435503534621859874862511034265691054672023410332004640834805221703214866421544395084031108332721434481390307754701743980374003054511390411059942029376171579194057640282547512013678764002716924970093249017026110272059195119370257043164152071827202544082659315224120024270266392346651560231622410016195275802295320558548787378022547867635375005700213079114110787992002016913237909248184019907527226954734790194754407738378216501824305203104800281017121176968542211550165888435736098542901627872010222876160015128422863881288920145756073220525205601425079019511062749013106137975462968030124359806305553614401217367741921070370011670386649445870870112505074559672065001090535101759075062010316141295871961960091065511539159483000834623367855161049008108345720232272320073261046361965760400794286545853059707007261521368905957390066948933642066362800617662117244715084005428758125519198780059924994952855211000521871233730722878004458030030413113600049099650078782009100417119188207964616003304424700230948590035107732406049824200380715426775553739003119929066060642540021672784009663062400221871552332420923002267738287007609590023065561686679131600232808398950129332002,
  576332017633893390364568814842530002303535628878678355891034273245604876033490332060334016448306903215269775167221102031111201677834618840307955044983347100303055884457647293411029385404168765066510282608397313074948102717318606397907356026112766090466977460257197958912741603202545023410339749745024275862243563051430231654973553101166102297173507104352701022558172562014288830213135096303641138102017210159486272138019922893651177722200194831958063104334001824686621830379379017123003983874100610165973609074081596701628258172698520037015130124269454464610145828862064388616201425381131878576300013107353389578693750124407155571338507101217546180949314478011676884639131283870112527913342211705401091308899147245288010318665104452609990091073424303033978200834861466543889384008109032148695077090073279970794290146300794784435182501613007262768501500446410066978596845277883400617728910975277919005430176945655149710059953305146051949100521924014633168060004458943127414094260049114166663660522500417140087007706255003304690291650650330035110556214253285700380736795206900625003119930371171366110021672439481829680200221863171764000298002267599490706248060023063692555764778100232786885245899781002,
  593834923663520280364704577674223955803536664319057621774034281008423783431510332117526172761930603215683721738106785031114144110016381790308160388837140470803057290905575901010029394855229880247150282670683973590642202717721048767591482026115314309822632160257356017455664156702545983393647162520024281568915351587320231688161209262581602299060790861146652022568661901948291760213192044923345303802017512019620884709019938505999724863200194910700928765495801825073667838349513017124856818373032460166059933339251980201628649315261606237015131846573085491690145902500525195986201425686587165150279013108581518682087600124454971770893422001217726273308768790011683438991616066010112550936819303383001092088503798514854010321206398738723750091081387372784099100835100944574074303008109722171020448820073298983896486746500795284387457866075007264020136208710570067008351585787617500617795876482073431005431598699962906440059981659927974242900521976853189360695004459856789144760300049128685417448184400417160979016376300003304955662373138180035113375922832485600380758108073806147003119931623249260630021672094747672443400221854795830202597002267460831786522320023061825689791303600232765399737874977002,
  611854364700166220364844257939834880703537728958422374099034288985071205913500332176256335388205403216108530141807780031117161834950781070308370853696790428703058731516068106055029404529737456771920282734402994989779502718132486286506431026117917845679411700257517405635323557302546962984880179277024287388500861015450231721984371692907202210098301424062253021579338783497735910213249975747070489902017818895791533731019954367974583452190194990653531780811901825466418720068795017126735811787512450166147422954007090801629045497202779463015133590010549699570145976997660783835401425995418941736792013109822482627774330124503259019174199001217908032559933893011690050134917586410112574146281763848901092873952802978308010323765279932631010091089401009570080800835341808287639112008110415801606406880073318085971457060200795786408508266959007265276283081032880067038198012938696900617863013939322249005433023389506590440051001005928240054300422029749325636611004460771014003386680049143206315718799100417181864208802350003305220812317138650035116191535085446400380779365466344972003119932822427638030021671749808366146700221846424531758776002267322310058822480023059961084671694200232743942370659647002,
  630405137416988270364987965277586648303538823594762916846034297181250469696500332236564517739075403216544475849228682031120256712918650450308586562744287832503060207088604986355029414432775199366520282799586034621741302718553111926217193026120577848917021540257682190574181695402547962566669726349024293323130819279730231756454624452181002210294079173184440021590206385066954780213308904794386113502018130866617087586019970483329848258210195071833299568510801825864953059405746017128641307994373430166236092506772402701629446778457384550015135354820035880010146052362615943086601426307661080228867013111076402268689210124552021462800105701218091472359048536011696718499803177400112597543027881610801093665283441724255010326341849692722570091097465475559391900835584064046778430008111113054887234700073337277322651439100796290504168963082007266536952169684020067068136275942863400617930323520788100005434451015340862750051003850319297215000422082702968215430004461685800388743550049157729334086660300417202742559896584003305485741402408040035119003054314877700380800567474483727003119933968839502720021671404665081571400221838057869378376002267183925333843410023058098736328686300232722513089003487002,
  649502449429461020365135812298116188603539949047176675644034305602811991883070332298491738810605203216991841072814462031123430648503805670308807642014329994903061718440658003971029424569537879235920282866265420762829802718983122621955118026123295493303669730257850440685898179502548982528758316660024299374974172282350231791583751867090102210493474804939895021601267935896623930213368848330745268602018448011872480439019986855872402256480195154257893412424901826269350444405656017130573655044597020166325956753735351601629853219611776185015137141242168320400146128604623155580801426623347755810184013112343399463209330124601263280258788201218276606458644572011703444519804191330112621128363449896301094462533187541362010328936210134794890091105581033928899000835827718233983962008111813945333488450073356558254068437700796796680281333877007267802153528869750067098166523879679200617997805399777219005435881578510931280051006699164319355100422135714043201263004462601146700105390049172254448206602600417223614044655638003305750449549729290035121810483828153000380821714188081019003119935062617552490021671059318985504400221829695843749716002267045677422584440023056238640694737900232701111837800771002,
  669161930345746030365287914662426773803541106156407726993034314255756942727570332362080047553363403217450914925467117031126685591608070830309034220457792945403063266408077404940029434945333658623330282934474166216027302719422719350350579026126071975929876630258022225698953356602550023268125485831024305546238732888660231827383741800459502210696551829362945021612526716827057470213429822871015572902018770412504556558019100348946260556010185237945211361124801826679691479081672017132533205209593930166417030620595504501630264881909683496015138949520029013370146205733003335968201426942513449320586013113623597082326510124650988682112335001218463448708104500011710228631230109170112644903601799722001095265739705625145010331548463833398070091113747948867043600836072777252070553008112518487452005990073375929070254201000797304942692856662007269071897214678970067128288905695731600618065459749137585005437315080052555360051009552461643278300422188782476583404004463517051337259250049186781633774001800417244478638160439003306014936680908950035124613826937254000380842805696887520003119936103894178900021670713771240749400221821338455539949002266907566136349200023054380793711998800232679738562089819002,
  689399643104313930365444391161815681703542295785399631775034323146240995757820332427372547811166503217921993583062362031130023538488620900309266430006557226403064851845488642563029445565586461826740283004245982173456802719872107208615472026128908517650083310258197616680680492502551085189115317658024311839171840308560231863866788970801602210903374811321669021623986061072165450213491845183057028302019098150648114575019102038801499258930185322913391159746901827096057795330979017134520315027943680166509329204330844201630681827258628750015140779899180041230146283757166578891301427265192949636494013114917119016861460124701201911204284701218652013054221153011717071273182691330112668870063833043201096074940854286187010334178713823178680091121966485575997500836319247524201657008113226695785914830073395390076301788300797815297257082470007270346193285032960067158503570203844600618133286741258356005438751520992050870051012410209592170300422241908194237027004464433512700514090049201310866524827500417265336315576097003306279202718772680035127413086958744000380863842090545552003119937092801468030021670368023006140200221812985705395183002266769591286744840023052525191332283400232658393207052570002,
  710232095606088440365605363799824662403543518819861891015034332280578167805560332494413423841134503218405380450646020031133446532818124190309504405639714863803066475626696984200029456435838393590200283075615292346633802720331495495202766026131806363532207590258376686061714246302552168703566093914024318256061030026850231901045298322776902211114009387014460021635649355004264960213554932291347561302019431309642155200019103755549897761460185409180813215049201827518532064978171017136535345352601890166602867774980548801631104118236401853015142632627686137490146362686612911625801427591421356067152013116224090184719410124751907242867751201218842313541759849011723972887570186510112693029078055971901096890174685659143010336827063600226620091130236910273821700836567135493914791008113938584914640070073414941577850533900798327749833612054007271625051799631120067188810666082258800618201286548069063005440190902346293180051015272406475631900422295091121923808004465350529190706350049215842122235620000417286187052151715003306543247587162110035130208267213705800380884823458589293003119938029471201080021670022075436553700221804637593940600002266631752685681580023050671829517040400232637075718014059002,
  731676252648455720365770957876262461603544776168850346289034341665244751006310332563247966427885803218901386332389331031136956666768152470309748285451185811103068138645100460997029467561752205751060283148617247369269502720801097791968171026134766783315269610258559507660862024102553274230942100425024324799234714426050231938931888449204702211328522280707958021647520038949839260213619101480656826702019769974046334238019105499593956873760185496766103593985501827947198011946361017138578661398576670166697661777444277001631531818097590158015144507956137427420146442530933052080601427921234080766380013117544636538189050124803108985134574401219034364314023180011730933919121583270112717381980612111001097711479446413245010339493617123423780091138559490196636100836816447625147231008114654169453912280073434583881085394500798842306288072511007272908482819900520067219210341873885100618269459341039080005441633225122725480051018139050589714500422348331185292674004466268099209210660049230375376723558900417307030823220267003306807071210931080035132999371027720800380905749890444554003119938914034855120021669675929682923300221796294121780555002266494050145372470023048820704237326800232615786040441998002,
  753749548168717150365941302073350010203546068765361855269034351306883338888270332633922599605293003219410329605385021031140556082116356800309998210718772343503069841814111326331029478949113813075750283223287739477728002721281132047861015026137791071875235040258746156710405167602554402198467623291024331471062874272150231977539395065422302211546981321719882021659601607996410220213684370299768834502020114229657623238019107271341809041020185585688137056122001828382140424557785017140650632791079500166793726833298144601631964990780164542015146406137672347930146523299809172319901428254666851160001013118878885071281800124854811478945517501219228179613417804011737954815400914530112741930115315956101098538893578464012010342178478815789050091146934493600764600837067190402261139008115373464055774880073454317292736282400799358972492093159007274196496408943410067249702745985482500618337805291176845005443078490319360800051021010140216948500422401628309880458004467186221157947230049244910605846446600417327867604198467003307070673515942240035135786401730811600380926621475428760003119939746623603650021669329586892254200221787955289498756002266356483478333120023046971811473777500232594524119946303002,
  776469897804735430366116528544039881603547397566943580992034361212306948718450332706484907999293503219932536397367080031144246971377902250301025432597468086202971586067586188876029490603834859205420283299663417474121002721771820664171127026140880549699206930258936709881836931202555553041263170217024338273957761217050232016880874536677102211769455461649882021671897612810670000213750756565253992902020464163527180270019109071207291458720185675966040120219301828823445167964524017142751633614153450166891078742627464301632403700912121651015148327428000748030146605003015667551401428591755712388962013120226963827115600124907019098361556901219423773782024163011745036026821615040112766674833686403901099372455719686254010344881753565829760091155362189764898600837319370330069003008116096483408591480073474142120077400200799877754323281699007275489102631485650067280288026686885200618406324569029334005444526698924790340051023885673626379300422454982421112550004468104893439389640049259447785502760600417348697370586598003307334054429063680035138569362657411000380947438302750793003119940527368317450021668983048207633300221779621097658252002266219052497380720023045125147216577000232573289902278618002,
  799855711780688470366296773002562899303548763556317240219034371388503242317310332780983664805642603220468340768439326031148031578961673470301051677907754055202973372360264991555029502531955333669160283377781701977268902722273390581359025026144036563368111790259131245312044462802556727202483950351024345210374611489710232056969607459379802211996014791861883021684411660467992190213818278365291232302020819863977433484019110899610020059780185767619194165356001829271199196711105017144882042459784710166989733485876428501632848013818183344015150272085427171060146687650419930609901428932537029768339013121589001905338810124959736250776190501219621161262168152011752178006660918630112791617494980320001010021220470462758009347603546728888680091163842848992243300837572993933858506008116823242237052340073494058670926571900710039865766520022006276786311553823520067310966332110219500618475017344681289005445977851918185530051026765649073595400422508393444303651004469024114456572650049273986891631649700417369520097968373003307597213878164870035141348257146318600380968200461511014003119941256399564990021668636314768244500221771291546801685002266081757015634230023043280707465435800232552083333331851002,
  823925908126075980366482174817256268503550167742018665054034381842638847606200332857468860416811403221018084896900034031151912202351770420301078572128594975602975201668219010573029514739646240932640283457680800966841802722786073367497769026147260486048025040259329842629941968002557925133460649638024352282812370938630232097819102296921502212226730561221446021697147415293510970213886954063540737302021181420619379377019112756975464384660185860667238566997401829725490567430099017147042242477499870167089707225714957701633297995526553262015152240370874320600146771251983132050801429277047491262344013122965129469599420125012967377128863501219820356596995627011759381211074320140112816759466226232201010105817956522452009350343964128495450091172376742612673000837828067759417849008117553755302181910073514067253644574500710092168840734137006278088133243773730067341737810249130300618543883787754675005447431950269306420051029650064800766400422561861304658379004469943882613101650049288527900212968400417390335762010800003307860151792113590035144123088540657900380988908040701170003119941933847613170021668289387709383200221762966637451264002265944596846513330023041438488229554800232530904359139731002,
  848699926236248520366672877105728223603551611159053037442034392582063783186200332935991731712338703221582119269249348031155891193314818840301106130733358040802977074989308046955029527233212322450920283539399725625835002723310105308353504026150553717990274120259532582983562102702559147293842534429024359493814431587620232139443099070838602212461675194091077021710108599714857410213956802303067903602021548924370098489019114643735023339740185955130073868188701830186408451671242017149232621424453420167191016308922555201633753712775730643015154232547906708870146855817761005727001429625324109974803013124355477755054080125066716952119378801220021374431048888011766646099110068260112842102122258057101010191041953151737009353103112057714040091180964142984869400838084598373060333008118288037401343740073534168177134434000710144685244510378006279394577770618740067372602608957966000618612924067407931005448888994938504240051032538919036668200422615385927271929004470864196313158420049303070787267275100417411144338464011003308122868100771780035146893860187831200381009561129204277003119942559842428090021667942268162464500221754646370108984002265807571803738580023039598485527604200232509752925876337002,
  874197740783068900366869026832416471003553094869566171466034403614315988343600333016604792027691603222160802874472655031159970959133647010301134369550587288402978993343646999350029540019094832769430283622978306487133602723845727499135975026153917687040482500259739549067613739202560394151742924486024366845969379903210232181855573108185102212700922308587969021723298995126778340214027842010319315102021922467470491608019116560326101861570186051027864986489801830654043148867032017151453571716012650167293677268289775301634215233021383264015156248882754493750146941357904640138901429977404226656633013125760179075923770125120989484423489601220224229510846239011773973132723729130112867646845748986801010276896403236942009355881097280498480091189605323498479300838342592361649396008119026103368248210073554361750840779300710197415567976860006280705655205057440067403560875951038600618682138352335456005450348986876728790051035432209996722800422668967237130842004471785053961511860049317615528855884700417431945803161159003308385362734992860035149660575439495000381030159815794547003119943134513675570021667594957255041900221746330745256691002265670681701330600023037760695387691600232488628979855654002,
  900439875984322470367070774908597937803554619963532215424034414947125960855890333099361861816417303222754503402689582031164153963867866170301163304771835265202980957774081992156029553103874370638160283708457209889424602724393185937945510026157353849156689260259950825151512874002561666183887066659024374341911756906950232225070738845814802212944546735106638021736722442767720870214100092399151116302022302143503237893019118507192188488360186148381044456794401831128486099434225017153705490476839700167397706824536956001634682624443278113015158289644337500230147027882661275323801430333325512228599013127179366833089900125175789516909493701220428936685463455011781362776792789910112893395027245403601010363385269618477009358678027033042110091198300558576247700838602056332623368008119767968072957600073574648284749130200710250360401847504006282021375619152140067434612758801842700618751526810766896005451811927025534040051038329935883025100422722605159113571004472706453963522790049332162101080853900417452740132018211003308647635626617620035152423237651495400381050704189137394003119943657990721820021667247456110816000221738019763356178002265533926353609600023035925113847336800232467532467531098002,
  927447420240875630367278276294909469603556187559458164781034426588421505095070333184318100021155603223363597448263587031168442729641924470301192952959660199202982969346676251103029566494273766223270283795877954748186602724952731620947960026160863688936704890251016649710789472702462963875762450059024381984322830344680232269103053692409402213192624535110656021750382844608569650214173572974910572202022688047410978212019120484782933851490186247210315710400301831609829898013434017155988779592477460167503121888250672701635155955952271057015160355104289429290147115402375105383801430693125970320583013128613175521734570125231121626855925701220635510907117901011788815499131300670112919348065200896401010450512535162821009361494009025129100091207050123676162300838862996914019807008120513646421891600073595028089385203700710303520337419626006283341749086276610067465758404942273400618821089610466594005453277816317083000051041232094884380800422776299617991255004473628394725155530049346710480085028600417473527301033872003308909686708471130035155181850183861700381071194337789289003119944130402634250021666899765849649100221729713424849306002265397305575195380023034091736953442900232446463335495092002,
  955242041150705290367491690106440237103557798805105580567034438546332592936150333271530036169249103223988470717468847031172839837961208350301223331055792002202985029151205915761029580197161025450590283885282929647581502725524620639307612026164448720154863990251038665244161491802464287721771599720024389775931379071030232313967221949117502213445233020197053021764284164253700080214248303538571430002023080275514726186019122493554230099910186347536656390900401832098168306848195017158303845761443950167609939561837951901635635297197356217015162445536982257410147203927488086877501431056843939827314013130061740739025000125286990426170310001220843967231755200011796331770504592510112945507366010381101010538282202834647009364329151441490080091215854295293589000839125420754500179008121263153357832610073615501475814221100710356895966571487006284666785681063770067496997961661842800618890826918732867005454746655674153340051044138685176332900422830050538428292004474550874652981890049361260642052028000417494307286289390003309171515914358420035157936416400723900381091630350197761003119944551878181750021666551887587580000221721411730158138002265260819181006340023032260560762267700232425421530478588002,
  983846000909172630367711179720458007903559454878229916760034450829196340058290333361055603208955203224629518240811507031177347931056770400301254456389470521902987138301665982299029594219552332564580283976715410258921602726109114277908314026168110486308321450251061138031924735502465638225387386754024397719514489836720232359678198789555602213702450771436780021778430427854471870214324304190923778002023478925532509417019124533968291263650186449381321707011101832593596269304458017160651100547839550167718177141498364201636120718572775038015164561219550826050147293468540752831501431424518097480290013131525199191841470125343400561609051301221054320819638180011803912064644023360112971874344044290101010626698295769030009367183562943153270091224713350963406800839389334523374065008122016503859931140073636068755640208200710410487881759910006285996495479355240067528331576106930000618960738902397477005456218446010143740051047049704921199000422883857844983082004475473892154191910049375812563206286200417515080063948401003309433123179062060035160686939670312300381112012314701245003119944922545835720021666203822436832700221713114679684998002265124466986259370023030431581339397900232404406999350627002,
  101328217210512460357936912886832919103561156987337872744034463445562100263260333452954171102752303225287144590105779031181969713259284730301286346685959502302989297936786574572029608568615112003550284070219577091776002726706479115894755026171850561173062770251084077159908704402467015899310894766024405817898366666250232406251194300097002213964357658995456021792825725035367390214401595336818938102023884096598243536019126606493734567580186552765847822918101833096209923532153017163030960434470920167827852119214236901636612291225185527015166702431917622790147384036173032609701431796187460436226013133003688704548880125400356714998389901221266586935938525011811556858261783710112998450421682863001010715764857343785009370057352668801100091233627569262145900839654744910623606008122773712943710480073656730241005286000710464296676017813006287330888558148140067559759395280010700619030825727825026005457693188229079770051049965152268102400422937721462108648004476397445636600520049390366219813075800417535845610256841003309694508438338030035163433423364899800381132340319529060003119945242533770650021665855571505832700221704822273812610002264988248806469450023028604794759725100232383419689117912002,
  104357405392264810358169061841223872803562906372463190849034476404196680508170333547286581194416103225961764100407378031186707952402838620301319020075239809102991509220559743505029623251671150687990284165840533583654702727316987129065388026175670549369787070251107491886166590802468421265631881068024414073959153003960232453701677581224502214231034862037560021807474209832894980214480197689470232502024295889280841873019128711605662707040186657712055286372001833606106616269644017165443846876495690167938982184758937801637110087060892266015168869456817754340147475641125077553501432171891388882135013134497348226812850125457863603456434801221480780951330688011819266631065753990113025237029350519801010805485951251934009372950630236123170091242597229810111400839921658626927573008123534795661070990073677486244588960100710518322942951775006288669974995543710067591281566038885500619101087560912282005459170883225619050051052885025353003500422991641314153331004477321533508655340049404921588178483200417556603901542744003309955671628912380035166175870860754500381152614452801482003119945511969864440021665507135899217700221696534512904212002264852164457448980023026780197107408300232362459546924328002,
  107474578875849920358407803421094023803564704305961333004034489714089679392460333644115181366981203226653801096906756031191565481259170150301352495100885470102993773342776999449029638276199781878510284263624324534420302727940915794148453026179572086939825630251131391644078975502469854855991872192024422490623766816040232502045380910801602214502564888918151021822380101647427760214560132274810045802024714405603562922019130849785747091370186764242052494904601834123384916792912017167890186355591980168051585227723577001637614178753137220015171062579824113810147568294238092434601432551669588656635013136006317841459410125515925979616259501221696918342588390011827041865774403960113052235605550296501010895865661574214009375863505743172170091251622613273509600840190082403685240008124299767100294310073698337079607397900710572567276739590006290013764870695460067622898235095911200619171524567087626005460651531885057580051055809322298733600423045617325361442004478246154179443890049419478644649473800417577354914216099003310216612688477910035168914285538119300381172834802529428003119945730981699580021665158516717852400221688251397303644002264716213755307530023024957784475861000232341526520050540002,
  110682217926558310358653319184624075403566552093323481293034503384458951937810333743503862009257303227363690126891681031196545199003004220301386790729126337902996091519577790596029653649841131756350284363617954891778602728578548194996439026183556841931275200251155786045510519802471317211749938731024431070870748862180232551298303970283502214779031597666429021837547686208187880214641420435904236702025139749063599479019133021522312074860186872378239200803101834648144631010892017170370410434662720168165679339562241701638124639749452930015173282089372745620147662006455172914701432935562113888657013137530738772380890125574548631850243301221915014693183658011834883048131755050113079447596898417901010986908092851809009378796089769720250091260704001366582100840460022993040582008125068642386047490073719283059812725400710627030272127849006291362268263757810067654609549017258500619242136911310461005462135135083336260051058738041215027900423099649419873927004479171306058702660049434037365613871800417598098624768751003310477331555690210035171648670781162400381193001456614563003119945899696563360021664809715058839700221679972927335422002264580396516451470023023137552967710600232320620555913490002,
  113982870583290880358905795532592262903568451074010309389034517424756203494790333845518092808427603228091876196884095031201650072709111050301421926358100946802998464994009132111029669380399429886050284465869408894041002729230173130729032026187626514995503400251180684884020446702472808884151183441024439817731124292920232601476718134523002215060520216764048021852981316551464160214724083837424199002025572024651910643019135227310420172240186982143310054811401835180486815707579017172884955813068590168281282815655698201638641544279076627015175528276788403400147756788822148787601433323609369652363013139070753392484320125633736384495342101222135085693888325011842790666922380730113106874458158920101011078617370159137009381748493378616010091269841676853720400840731487167905927008125841436679387010073740324499492281200710681712524429458006292715495255833680067686415654222131900619312924758070630005463621693687046630051061671180198558800423153737521729051004480096987556823650049448597727500384800417618835009774185003310737828170165080035174379029977940100381213114502849248003119946018241448690021664460732015530700221671699103304930002264444712557583140023021319498694779300232299741602066022002,
  117379154451290250359165423833293193403570402622305991448034531844672715735350333950224960387208003228838815015064365031206883138881756940301457921827303507802910089503659660859028685475846384764230284570427669576671202729896085225861241026191782839994207890251206098138127717702474330434497990983024448734289277802340232652597170826229302215347117366223056021868685414012304210214808144470177479702026011338873300600019137467651958282620187093560258189277801835720513792933069017175434264382405850168398414157394032701639164967360427537015177801436310308540147852652488433233701433715852114639151013140626505231686200125693494098079561401222357147143377870011850765213986465970113134517652278367601011170997639176702009384720828117140460091279035923551586300841004481721985710008126618165177761560073761461713467903500710736614629521205006294073455928923480067718316696982027000619383888271387801005465111208553436660051064608737332965100423207881554863013004481023197084862180049463159706778635900417639564045887448003310998102472474300035177105366520355300381233174028916451003119946086743054630021664111568677545000221663429925498429002264309161695700930023019503617778057600232278889606196411002,
  120873758540708030359432400550568103703572408148192921153034546654145207724970334057693206804081003229604973239094999031212247505017214300301494797427228895702910338294592696837028701944324625691110284677342738649215502730576585042449725026196027584617205410251232035974631773302475882434324078529024457823683842520190232704676489935967202215638911078966989021884664469229807800214893624655697669602026457799766746655019139743055724922700187206652378841044101836268329164544588017178018783282825190168517092074278092001639694984808646844015180101865118106380147949608707878022501434112331463846581013142198138984951620125753826669549529301222581214948838115011858807184234911730113162378650420660501011264053066264188009387713206018364680091288287026331231300841279013469800044008127398843115015640073782695017095189000710791737183841279006295436160365872710067750312823419962900619455027614810913005466603680530417900051067550710688891000423262081443110660004481949933054544990049477723279959154100417660285709844949003311258154404142440035179827683804122400381253180122389610003119946105327787340021663762226130774100221655165394183225002264173743748098470023017689906347672400232258064516127921002,
  124469445152139450359706927375021411403574469098247621058034561863361835138590334167993268935611903230390828729459429031217746351200017290301532573909219585302910593004924253301028718794151212176330284786665656749292502731271979194292750026200362551011126980251258508751989720202477465465571390329024467089108602845480232757731788308542802215935990822519236021900923043166215890214980547050894176202026911516925979115019142054037518486100187321443273014417101836824037826898684017180638964959900550168637335486040067801640231673243200831015182429863358022930148047668839634781801434513088891284379013143785800520379280125814739032499161401222807305126574000011866917075664495450113190458932001926801011357787838533507009390725739602509110091297595271120210600841555089246708195008128183485761392370073804024726262755800710847080784386812006296803618650320660067782404179509750600619526342951417562005468099110456570450051070497098324010900423316337110206115004482877193878276760049492288423593379800417680999978464328003311517983907643810035182545985228730400381273132870732772003119946074121760290021663412705457401100221646905509607753002264038458532364390023015878360542866000232237266279818384002,
  128169051810286310359989211358499965803576586956558341014034577482768330743630334281197318760272403231196870808433215031223382931733658370301571272495518577602910853770304765274028736033821212160080284898448524080395402731982580463219814026204789576419204380251285527023750874902479080120769882431024476533813411432670232811780468296784402216238447521002939021917465768139958830215068934652762645702027372601520316137019144401120226536750187437956851184691501837387745985696518017183295267222051080168759163524783274401640775110095548198015184785734169224600148146844349022233901434918166232697429013145389636887330550125876236157399463601223035433802621332011875095389373075440113218759984725504601011452206163922093009393758541878300400091306960944904692500841832715908931944008128972108423536240073825451157391500200710902646028711428006298175840866648650067814590911075206600619597834443813508005469597499161150890051073447898283068900423370648479783450004483804977969148540049506855114273718600417701706828644325003311777590926398410035185260274197405800381293032361300331003119945993250795220021663063007735907800221638650272001667002263903305866381790023014068976511964000232216494845359760002,
  131975493246928290351027946505191316803478763245664847936034593523074289357220334397379304563585903232023600524808213031229160576806437130301610914889532455402911120729372743837028753672011350324930285012744521440435202732708707917506345026209310533832329860251313101542049594902480727003220237242024486161105120534220232866840226383630802216546373577456395021934297348872846590215158810803156806202027841166315756406019146784833916148140187556217337042563601837959561170983270017185988153298522140168882595537141299501641325373616871222015187169783710378360148247146808399619401435327605688306356013147009796324606200125938323051829467301223265617213360645011883342629574853260113247283304617007601011547312271266249009396811726344332410091316384335731568800842111900333578940008129764726444494970073846974627433853900710958433514922754006299552837099928900067846873163789450300619669502254132050005471098847464097670051076403108597909700423425015475377338004484733283740945830049521423328633518000417722406237364627003312036975404769100035187970554117065700381312878681337169003119945862840422630021662713134041091500221630399681575953002263768285568327830023012261750412353200232195750160977706002,
  135891763434418450351057790664647384803480999527520923293034609995259600539530334516614993084693803232871530924491210031235082694193183710301651523286308702802911394023817900631028771717583727801080285129607931647986002733450687032450505026213927332651577030251341243261157278302482406727179557448024495974348527900460232922929057873452702216859862896468078021951422563551570340215250199193622353502028317325696332213019149205715925298290187676249271279905301838539592252302692017188718091897927020169007651086456634201641882542885871653015189582321186418070148348587898046085901435741449825564528013148646428268666140126001004760708218401223497871706133808011891659303615678610113276030396059469601011643110410374555009399885406990423010091325865732710559700842392649418665594008130561355203722110073868595453873018500711014443841679927006300934617435871350067879251083174102300619741346544033442005472603156176037600051079362727287508400423479438020423650004485662109608153160049535993043347081100417743098181685687003312296137288057720035190676828398286600381332671917978428003119945683015882460021662363085444074400221622153738523036002263633397456673400023010456678410455100232175032175031149002,
  139920937670951170351088476011844225703483297404480101428034626910581032375170334638982012625338803233741187327103925031241152770993611120301693120383231693802911673798445548464028790179589614625950285249094161373638102734208849813150943026218641919362379430251369963341094569302484119918050083594024505976967337479810232980065261653667702217179010907136121021968846264903719690215343123870293793902028801195685726695019151664310955336160187798077515417316801839127949454009837017191485557267360720169134349954979077301642446697816632237015192023658875516670148451179407046434101436159741581933647013150299683361898670126064286366528032001223732213739863220011900045921988416700113305002771828605501011739604852101524009402979698298977280091335405426016315600842674970083140387008131362010117078740073890313954722226300711070677608191159006302321191960773960067911724814598595200619813367474704439005474110426098292970051082326752358008400423533916038260251004486591453985965600049550564235129695100417763782638748626003312555076522502170035193379100455272300381352412158249617003119945453902124760021662012863012317400221613912443016883002263498641350182300023008653756681695800232154340836011860002,
  144066174718861180351120025537745607203485658520305180880034644280578969730890334764559897141920503234633107608709635031247374375408025440301735729390941532402911960201242301414028809067273316256210285371259763383293102734983534919520988026223456278220551410251399273151304635502485867212570978733024516172445135094250233038267445027494202217503914586355657021986573381288469700215437609238854750302029292893969157021019154161171164523530187921727255673773601839724744370741196017194291029252081630169262712146083886801643017919166543223015194494112156263440148554933234182864501436582524267675779013151969713460932410126128172989588717301223968659885673385011908502998348352250113334201953128116001011836799888421222009406094715246345270091345003706890524500842958869266906662008132166706636834990073912130448523972000711127135414211207006303712570761470230067944294503279387400619885565206857618005475620658022887710051085295181802749800423588449452127488004487521315290292550049565136880737637500417784459585775062003312813793055272390035196077373705803600381372099489066471003119945175623810230021661662467809631900221605675795213081002263364017067911450023006852981410483600232133676092544007002,
  148330718997267240351152462841853269903488084561202068097034662117084310493270334893430131342454703235547842490798117031253751158551187670301779374044480335702912253383443100656028828390076115559460285496162459201175702735775087793579681026228372431950352790251429184274388538602487649259013231253024526564326379341200233097554528618968402217834672482439092021100460891780213240205533680069562798702029792539915527659019156696856262670470188047224006878867501840330089983045163017197134993355773890169392757886509931401643596288544295364015196993999535051390148659861388833020201437009841568663299013153656671644996320126192669788233058501224207226827515098011917031049528657300113363629469625108201011934699832501073009409230573304184800091354660867644001000843244353930845345008132975460251671210073934045254349249700711183817860038921006305108763925278050067976960294279246600619957939900730954005477133852732554600051088268013602305000423643038185168993004488451691937767270049579710956968181500417805129000066939003313072286834467770035198771651571209800381391733997234934003119944848305310950021661311900896190300221597443795248961002263229524429209740023005054348790181500232113037893383753002,
  152717902830388930351185812147783135303490577256878513709034680432225523343420335025676196810336003236485955835661178031260286856305094430301824078614670392902912553499599590792028848157640291666630285623861162199906602736583860789058746026233392442454799350251459708509903688302489466717377720651024537156217407931210233157945751351141502218171384739073496021102295795739877900205631361502339298402030300254599855982019159271933606872210188174593616428057001840944100673174263017200017940801390870169524507628617978301644181888417939481015199523642673672220148765975991874322001437441737549206733013155360712224326800126257781959083388601224447931362792251011925630595555900660113393286859485606701012033309018775793009412387388440821510091364377201658785300843531431056837819008133788286486679390073956058691796784300711240725546514712006306509781539947550068009722332506517900620030491716087220005478650011000741640051091245245724511900423697682160432205004489382582345753550049594286440659609500417825790859006428003313330557809113470035201461937476335400381411315769451178003119944472070711030021660961163328543800221589216443243690002263095163253718180023003257855023079600232092426187418831002,
  157231148752894900351220098319226430803493138381628319526034699238435870696160335161383619177299603237448024948294059031266985291211483490301869867919728841202912860707649872699028868379813217101340285754416001125233702737410213303364513026238518411538415530251490857878226359202491320259596494769024547951787459686360233219460675498490502218514153119619300021104162566202608250205730679051925180002030816160825973423019161886978298358860188303862268281308901841566892241039924017202940368592586270169657982052669299801644774802123012582015202083366417123610148873289276594482501437878256654899416013157081990748619140126323514737279291301224690790402990954011934302159665611100113423175669410113301012132631803021338009415565277122610250091374153003390231200843820107647788261008134605200903363220073978171080992243900711297859075018079006307915633693610030068042580762714351300620103220812213427005480169133591618440051094226876124503500423752381300869095004490313984932352290049608863308691211500417846445140055750003313588605929156740035204148234849490100381430844892301391003119944047043807150021660610256159626400221580993739298383002262960933361369100023001463496320373000232071840923668098002,
  161873971873692320351255346876304938803495769755441607287034718548460800539230335300640016368590003238434640884961651031273850374404882710301916767337123580902913175168989659744028889066651534668090285887888344063356902738254511911936727026243752481642644500251522644624479324302493210569737309136024558954769712430220233282119191814633502218863081031755597021106061727377662300205831658613103436602031340383149506009019164542573280473520188435056487005619301842198581920331753017205902779575737490169793202069124708601645375113870732010015204673498821627510148981813589608472601438319443715481259013158820664015528800126389873396716477101224935820974311642011943046268317895800113453297454669302101012232672562429068009418764356315298370091383988568369099600844110390727646275008135426219099639010074000382742587487800711355219047465109006309326330474726730068075535729499998800620176127347920344005481691221260083820051097212902744743500423807135529336791004491245898116410090049623441537983313400417867091820757029003313846431145463610035206830547122422900381450321452261974003119943573348109190021660259180438774400221572775683496154002262826834572385850022999671268902134500232051282051281146002,
  166649982299571310351291584012329708403498473245141750321034738375365510951140335443535147943636803239446408768569517031280886107587026130301964802815675153602913497048544863851028910228425415544440286024340822858628202739117130505044229026249096836594113890251555081222525595002495138344211476299024570168962337001240233345941524736339002219218273552475471021107993811605480380205934326465989122502031873047901136080019167239309437786020188568203141861793801842839288394802856017208905682502567040169930188820964206501645982908756257630015207294371182864120149091561391781774601438765343947719212013160576890079217540126456863250286821501225183040218303301011951863451213106380113483653779139769501012333435695679997009421984743485388630091393884193203645800844402287341429199008136251356709836230074022693997759766800711412806066305978006310741881972037940068108587377304094200620249211481541980005483216274751773340051100203323515062400423861944768598247004492178320317525450049638021105497294600417887730878732150003314104033409816480035209508877730281500381469745535699290003119943051106840940021659907937211734000221564562275902286002262692866707282290022997881168997283300232030749519537868002,
  171562887620173410351328836610972843603410125076554958378033758732542691170850335590160965556128103240483948110983813031288096585043483760302014000887909497202913826514845638677028931875622900084630286163837357989582902739998450427059415026254553702365976920251588180379029351602497104291985074471024581598229567615910233410948237664831102219579837453437042021109959359475958530206038709281387481202032414283210149205019169977785696354630188703329450935872301843489131814722227017211949592093363800161006896368602739101546598272767021342015209946318064416040149202545259159991101439216002958306086013162350828258946840126524489650119465401225432465392500452011960754241307549220113514246215339862001012434925623019014009425226556601498100091403840175581688900844695804555244188008137080629404696500074045105168210926000711470620734522395006312162298274509050068141735850409868800620322473370934959005484744294803063780051103198136352681900423916808941322834004493111249956056030049652601988235543100417908362291682613003314361412674909590035212183230111577800381489117228869725003119942480442940780021659556527520674600221556353516564285002262559029586862600022996093192843568900232010243277848044002,
  176616495455789240351367132263862203703410410428067552903033779633720443217630335740611664558040303241547893142448504031295485995703386140302064388682666590202914163740101908882028954018954322900450286306443183911790602740898860618255503026260125347852548170251621955037585120302499109134793571042024593246502788836720233477160238325653002219947881226674455021111958919948327360206144834126221429602032964219028269936019172758609125154610188840462985315905501844148233813496792017215035029100815980161020954827937484401547221292791127455015212629677326434250149314777883905021301439671466746777867013164142639147721400126592757987823221101225684113871062865011969719174829260750113545076344465640701012537146786329426009428489914135726220091413856814272707300844990949456310475008137914052891373880074067616576166641800711528663655625134006313587589471282350068174981292942475800620395913173478132005486275282141083180051106197339162254900423971727970087015004494044685453125920049667184163241522200417928986037389347003314618568894345840035214853607708147900381508436617919698003119941861479062020021659204952404201200221548149405511970002262425323032220440022994307336687539200231989763275750906002,
  181814716069504560351406499288609001803410703580494026872033801092970388066010335894983736772197603242638893148247049031303058625243097520302115993937969948402914508900280412194028976669356823725310286452224874875489502741818757759168566026265814085657442670251656418382916270002410115360735990757023605117781639366760233544598784207968002220322515110673459021113993050472650630206252728469028734702033522987153788349019175582395038675830188979631673314121801844816717524463396017218162520374454200161035196445567061201547852056625820793015215344790154519380149428272075237590501440131781708448527013165952484620976770126661673694730027801225938003145417661011978758791293829460113576145756426871101012640103649207546009431774935065016370091423934409129912500845287729152981408008138751642913434790074090228544375607800711586935433651531006315017765651624640068208323848868264600620469531046072046005487809237483716760051109200929835898500424026701777375058004494978625230633630049681767607599764500417949602093712670003314875502022634800035217520013965124000381527703788885526003119941194337573990021658853212897367900221539949942757597002262291746864738820022992523596784515600231969309462914770002,
  187161565045265390351446966747278578203411004740442463392033823124715960511260336053376024458999203243757612812762333031310818858234752500302168845014162190202914862175183284583028999837998945655270286601250371226533402742758546417567158026271622272895444630251691583845143909502410323845761610047023617216135132917820233613285488084450902220703851116816449021116062317112966020206362420185529945802034090721255981136019178449767100706230189120863804735134801845494707597852763017221332598925709640161049623431158580001548490652986025169015218092001088818220149543040760386244501440596994637363157013167780527845316180126731242242139545401226194150824903885011987873633520254490113607456049883127001012743800697037153009435081738872518590091434073261092312500845586150774766118008139593415250855580074112941396108733900711645436673162905006316452836904874870068241763661994002300620543327145138344005489346161539613450051112208906253222800424081730285579523004495913067711257340049696352298435854000417970210438591986003315132212015187870035220182452330888300381546918827693389003119940479140562220021658501310031684400221531755128295939002262158300906089500022990741969398569600231948881789136567002,
  192661166033479540351488564465314913603411314119814938002033845743740897000530336215889775503215503244904732571092221031318771180340576680302222970907311943802915223748528217576028102353628532242500276753589006199469902743718639198077693026277552312008340970251727465104127350502410536444692841259023629545702796417340233683242323613032302221092003056202136021118167294672092090206473937564268050502034667556899831508019181361357429318560189264188035190861601846182330217927557017224545803993601570161064238018822379401549137171512952743015220871658053347340149659096985543049501441067152729269871013169626933287296720126801469141565053501226452574637420087011997064247646879840113639008832279989201012848242437064462009438410445548954940091444273672186792400845886221472351396008140439385720023210074135755455158347700711704167979242094006317892813320394020068275300875966220700620617301626619354005490886055008193460051115221266281366700424136813417002047004496848011318463020049710938212916455000417990811050045776003315388698828315180035222840926257041800381566081820159467003119939716009829260021658149244835133500221523564962104384002262024984978232800022988962450802497300231928480204341476002,
  198317753565781550351531323050929519803411631935938553277033868965197920670880336382628699847294903246080948968376891031326920180553905190302278401262897403302915593808030217429028104777586145628360276909311533211216202744699456894507365026283606651594935300251764076093877202902410753235032614715023642110695825777940233754491631021378502221487086566844287021120308566818115400206587309312320376402035253631571049719019184317806703062420189409633390462134501846879713120295461017227802681111047210161079042467356693001549791702782783639015223684112385532630149776453916825681301441542303584609487013171491866722261400126872359944980381301226713292430074020011100633118314736090103670805719885304501012953433398472859009441761175593983810091454535945530181100846187948417623420008141289570173732350074158671045837385300711763129957490868006319337704987513690068308935634270454700620691454645977555005492428918579656940051118238007775030900424191951093853904004497783454476512320049725525328249326200418011403906171364003315644962419223260035225495439198372300381585192851989698003119938905066895380021657797018332181300221515379444143036002261891798903416720022987185037277790100231908104658582501002,
  204135675940651340351575273914965768703411958411699601038033892804617628050150336553699027198157503247286975027002780031335270553487868130302335166389772019102915972545484996938028107256861858820700277068490153664316602745701428644912644026289787787255483520251801431007042294902410974295673411947023654915398259509510233827056122875466802221889219141254777021122486726212585620206702564561083851902035849084701398311019187319764268383980189557229270907840201847586985609398655017231103782171807100161094039060494494601550454338315417179015226529718865974910149895124841246238701442022495211524116013173375495243221430126943920245068089401226976322169835353011101567499284669100103702848337825561101013059378132457892009445134050017564830091464860385331310400846491338803689012008142143984501184820074181688492978583400711822323214027459006320787521995484820068342668080230531900620765786358195131005493974752934989770051121259128576511100424247143238256656004498719395610467790049740113621683289600418031988985144803003315901002746010960035228145994612813100381604252008779798003119938046432999140021657444631543787000221507198574354822002261758742504176990022985409725114617300231887755102040054002,
  210119398181604920351620449291249860203412293775680924354033917277917581906250336729209566035216203248523540621846300031343827101712704790302393297274417856602916360156854031063028109792669866208810277231198545268855102746724992089459832026296098262450788500251839544299471545802411199706920886334023667964168170404770233900958889933275602222298520154416103021124702374640434760206819732872134403902036454057694325711019190367888248280620189707005455921964401848304278576182478017234449665498071250161109230107152540401551125170583295084015229408835748438850141001512316768669501342507776028884137013175277987269785520127016155675468794301227241681944190611011102509623293727830103735138320122322701013166081212302386009448529190341323310091475247296893080200846796399844897368008143002644627986710074204808121933649700711881748355483964006322242274433426180068376498357007873200620840296917773375005495523558745970870051124284626515729900424302389772242822004499655833146200470049754703070508290800418052566265220715003316156819767666540035230792595961414500381623259376015361003119937140229097890021657092085487417400221499022352665528002261625815603336210022983636510611792400231867431485021559002,
  216273505069719140351666882257439933903412638262302552039033942401411614835040336909271763947582803249791392863728283031352594738142698190302452825595492306102916756842351307810028112386249938467180277397511890892171502747770593531125139026302540669376187430251878430694852006502411429550517862593023681261438875587040233976223407084822402222715110892148163021126956123141645000206938844243161304002037068693950911096019193462845652204300189858992108438879001849031724515943414017237840895908685250161124617941682608701551804293020297058015232321824790068310141013646242788095901342998194869333823013177199512557139780127089071911031709301227509389961801168011103459546299507130103767677309728760701013273547233451559009451946718599915820091485696986614517600847103138776861137008143865566516147110074228030258572449500711941405989003863006323701972390274080068410426607600767900620914986478732377005497075336675181940051127314499410270900424357690617756480004500592765510397700049769293652055358100418073135724732162003316412413444063910035233435246708303800381642215039071705003119936186575868490021656739381177057100221490850778983991002261493018024003650022981865390076754400231847133757961048002,
  222602704252285630351714606756385012303412992111965681088033968191819348271110337093999769329289903251091296491248412031361578488473726180302513783738673852802917162806531806277028115038867938294970277567506907945555802748838688099281725026309117649850678190251918105189424197302411663909668720850023694811720165150380234052873539379658102223139114579874258021129248592144682820207059929113977400402037693138896123438019196605312487227020181001321977948732201749769457546358544017241278044788027800161140204924124970401552491800030708373015235269051281826460141025915627740365301343493800982355537013179140242205073180127162674668066271301227779464553163242011104417324599573540103800466958566258201013381780813588296009455386757342394730091496209761992825000847411562856477484008144732766164074200074251355229282177900712001296722239399006325166625954730040068444452974843639800620989855194610330005498630087376011310051130348745065410900424413045696653867004501530191130568330049783885343696624100418093697342090476003316667783735959840035236073950320642400381661119083213819003119935185593708050021656386519623218700221482683853202095002261360349589575060022980096359825541400231826861871418755002,
  229111829429457270351763657618005958303413355571200084480033994666275931787020337283510494462167403252424034271179862031370783493672490750302576204811812941802917578258381736019028117751816346088460277741261878317959702749929739916226663026315831896221446820251958583056776114002411902869064171747023708619599549712650234130933548143273702223570656411793022021131580411601731440207183018372606295602038327540005400895019199795973870486010181016971941279410601750517613425699661017244761690155546850161155993440464110801553187786998262631015238250884079170040141038321849666586301343994644037353394013181100348667057440127236969704595154901228051924171271325011105383014833088970103833508927561132801013490786592708609009458849429633576920091506785931625438600847721679361949483008145604259606574270074274783360966532500712061421163349125006326636245215210970068478577601406398800621064903218463248005500187811492664750051133387361274154700424468454930704105004502468108435050920049798478122845326600418114251095785105003316922930604990760035238708710268615500381679971593596554003119934137402734150021656033501832960400221474521575194947002261227810123731560022978329416182763300231806615776080717002,
  235805843620742600351814070581710468203413728892815020916033102184234200744530327477923680015518503253790407407596936031380215012518417620302640122660393653502918003411410568883028120526414795714320277918856678865475402751044222266690873026322686152284015910251999879852716883002412146514906427060023722689743527080850234210428097183165202224009863580458789021133952221125727130207308143361446897502038972046831549601019203035524142910320181032852234943697101751276329571230302017248292416735947630161171985902886697101553892350295256501015241267695632947360141050866299191734101344500774126754914013183080005759371260127311962820608242801228326787392283440011106356673982438470103866804886681410001013600569233197042009462334859055406030091517425805212076600848033495592806735008146480062914847370074298314981044877700712121779920995279006328110840259797310068512800629793684800621140130702864443005501748509660173220051136430345817266200424523918241589772004503406515853019780049813071966955832700418134796964383504003317177854013669330035241339530025369300381698772655264297003119933042122786180021655680328809888700221466363944820894002261095399450439750022976564555481579800231786395422758365002,
  242689842513312320351865882319354953503414112336053728655033104973801390434680327677361960994158003255191235959924179031389878424199350660302705571883312564902918438483744899430028123364010620583250278100372812467359002752182617770390631026329683214218305430252042011420231572502412394934934773345023737026898868373390234291382259086312502224456865306778765021136364670129238290207435335883516822602039626811031969806019206324666984254630181048966033254816301752045745077791255017251870816030055260161188184750041826401554605587291740239015244319862020532270141063550379625577801345012241769132513013185079388670276170127387659858317945201228604072916189601011107338359374863600103900356514973694701013711133419902282009465843169708321530091528129693556780300848347018869926364008147360192196484800074321950417451408400712182373604341273006329590421176183050068547122202344170400621215537799903998005503312182504397240051139477696463303900424579435550907511004504345411814492890049827666853523618200418155334926530948003317432553925381090035243966413066995600381717522353151172003119931899873425020021655327001554176800221458210961921666002260963117393951120022974801774063675500231766200762388140002,
  249769057894071070351919130458765941703414506166751583934033107837173406839070327881950934165247403256627359270090104031399779230962090500302772587848980800602918883698224167436028126265979410202720278285893439657853802753345418557665611026336825931540836830252084993894518268002412648218451553464023751635893923827700234373821521608910002224911792870430195021138818417965200390207564628208775178602040291986396210059019209664115529447960181065316551206844601752826000736572782017255497486386342200161204592447303576901555327596364782027015247407762977187870141076375507064287601345529097912343399013187098673969242650127464066702415696401228883799567482574011108328128684100890103934165500600125301013822483860212843009469374486212623060091538897908569955700848662256535553513008148244663595464810074345689998634301600712243202823049109006331074998051623650068581542461229881000621291124661188365005504878830642038050051142529410968652200424635006780168701004505284794750336660049842262760085278200418175864960950404003317687030304381450035246589362872489300381736220772080925003119930710773934520021654973521062574200221450062626322451002260830963778801610022973041068279233900231746031746031085002,
  257048861167527870351973853607834267903414910657498008223033110776240173249620328091819226996076103258099636398976412031409923060818901550302841206711755733902919339282498277775028129233725577403570278475503410844298302754533126448260468026344117208073361420252128843708108750302412906456348562817023766521639948610150234457771794159883102225374779640704312021141314134069532210207696053080525808302040967728873854616019213054592486269150181081907044955245201753617239054078103017259173033073137600161221211487035852501556058476907808624015250531781927666850141089343110492729701346051393936689098013189138039616223720127541189280329582501229165986295831405011109326039932025570103968233540875414501013934625284132833009472928933709838300091549730763270414900848979215953322166008149133493292149160074369534053554869400712304268187276813006332564580972885030068616061548455456600621366891437839895005506448454680643920051145585487077553600424690631850800054004506224663092274230049856859664218527300418196387046442346003317941283115792240035249208382923719600381754867996766904003119929474943321550021654619888328416300221441918937831997002260698938429811120022971282434486914900231725888324872449002,
  264534766961525550352030091379195414603415326087802209675033113792938383260950328307098568135278603259608946572356132031420315670311116680302911465428708657702919805469127153793028132268682936434780278669289299121837302755746253133299792026351560002928169140252173577596074080102413169741133865986023781689132448886440234543259414379298102225845961107781720021143852498105656770207829643721901862302041654196602746535019216496830254367080181098740812302573001754419604271277335017262898068351513270161238044388859573301556798329340021534015253692306018046640141102454631887456501346579181658094060013191197664970982300127619033562483258601229450652176757738011110332151490300390104002562342303985501014047562444357875009476506637864090170091560628571787410700849297904508275313008150026697503279270074393482911686718100712365570307675911006334059180026194210068650679605857506100621442838280496426005508021055218618840051148645922522145300424746310684144293004507165015272891420049871457543542208400418216901161884681003318195312325598870035251823476705387100381773464111812126003119928192500316860021654266104341638200221433779896242688002260567041172083160022969525869053827800231705770450221306002,
  272232436822961460352087884415509836903415752744262846468033116889252617496130328527923859470712003261156189636520250031430962947330998490302983401776735174602920282495682260897028135372315292126210278867339433695072402756985320360513960026359157331510364810252219212601316449802413438166959040778023797143452548468800234630311154813075602226325474914445672021146434200110952490207965433842432831802042351549937551827019219991571045639010181115821193189402301755233242382956512017266673211548866580161255093699922215901557547255115889776015256889726147803350141115711526320403601347112513331303999013193277730802465380127697605562556040101229737816412314547011111346522082030020104037153620617183001014161300116351123009480107724863462760091571591649362671000849618329606885677008150924292481971680074417536903014890300712427109795388839006335558805297187540068685396775103880700621518965339310786005509596632845230610051151710715022491900424802043201460725004508105849725644680049886056375716300800418237407286232513003318449117900647090035254434647704999500381792009201709179003119926863563375680021653912170088785500221425645501330647002260435271831004310022967771368355511700231685678073510151002,
  280147683005636860352147274415357151603416190920741700170033120067216486004320328754433249797297703262742286523789777031441870914003001070303057054370014674602920770604850136055028138546117040313220279069743933917211302758250860122765615026366912266537353950252265766079948517302413711829646854779023812889768376296370234718954229685165202226813460888237547021149059940645150140208103457644694573802043059951478665585019223539567005972610181133151570190501601756058301157258976017270499089133184720161272361995169679101558305356734718694015260124437002118180141129115262063260801347651441653102488013195378419298229360127776911337744151401230027498331767399011112369210783419040104072009100810523501014275843098419158009483732321421365890091582620312352412900849940498677075306008151826294517712820074441696358034984000712488887262046311006337063466870858830068720213197692952000621595272763950335005511175188140615760051154779862286612800424857829323925824004509047164884864760049900656138441914500418257905398518070003318702699808639040035257041899412833800381810503350840166003119925488250678180021653558086553024200221417515752855797002260303630232243950022966018928775903500231665611146294508002,
  288286472352493850352208304159758826503416640918541452658033123328913796914280328986768210130553703264368179728126807031453045729625688960303132462677826145302921270044537963987028141791613779743330279276594743958176102759543414849940363026374827939075870770252313255706761821602413990826719382798023828933336475107640234809216301768804902227310061074062824021151730430940714320208243749831043971902043779566101468033019227141580338384150181150735369016377901756894930155427142017274376334788023270161289851877620594801559072737750298572015263396837084434130141142667320692590401348196019765548915013197499914073918580127856956989023333001230319717392279054011113400277025437730104107130517181145301014391196211788455009487380554777909080091593714878229386200850264419168236305008152732719936354620074465961607752325400712550903319764857006338573174831510350068755129014952982200621671760703596651005512756721675793270051157853362010523300424913668972633964004509988959185767010049915256809461270000418278395477850497003318956058018131330035259645235321905500381828946643476806003119924066680130330021653203854714156400221409390650562025002260172116201753710022964268546707322200231645569620252563002,
  296654930274463360352271017539343772203417103046587657221033126676479751904150329225073610699580103266034833791045496031464493693675465960303209667042726836102921781067981235111028145110362935656260279487985668111715102760863537604249644026382907539596778210252361699480785396102414275257426569696023845279503231537280234901125489357838702227815419767250001021154446393055218050208386345610438530802044510560985929875019230798383427545440181168576059020147901757743280751739802017278305589488177710161307565978642987301559849502780628837015266707328749246600141156369197195620901348746301259234479013199642400182791320127937748661412510501230614493179595995011114439780595490850104142519613365230101014507364300681464009491052552701262540091604875665584887500850590098551250389008153643585100109900074490332983681072700712613158581144160006340087939262701880068790144368041405400621748429306944943005514341234012667530051160931211878264600424969562068597985004510931231064454950049929858366557746600418298877503415752003319209192498530900035262244658927928800381847339163780321003119922598969364310021652849475548623400221401270194177174002260040729565766960022962520218550439300231625553447184741002,
  305259344828273000352335459582172041903417577621615000766033130112102169093010329469497799656649703267743235798042855031476221248873403330303288708699101087202922303933853526643028148503954395260710279704012406753549502762211792279009580026391154319047962700252411115730936180902414565222775246752023861933706327979800234994710373339714402228329683547071014021157208560025744140208531280705342243402045253105646573605019234510758965728840181186677153709854901758603506153651700017282287501576072850161325506958233371701560635757517721916015270056318235138300141170222400076760501349302340176558672013201806064125298380128019292544238789301230911845408737889011115487781639092370104178178142375556801014624352232393023009494748443489026410091616102994130771800850917544318508926008154558906407545700074514810817843353200712675653659264507006341607770247198790068825259397944126700621825278722203719005515928725704040170051164013409561934100425025508532749768004511873978957928110049944460787555851300418319351454476427003319462103220092110035264840173729291200381865680995801444003119921085235739060021652494950029525000221393154383413181002259909470150798470022960773940714258800231605562579013334002,
  314106170895577420352401676482231946603418064968357954169033133638022733952090329720192683539479803269494395885765449031488234984316415900303369629792086430802922838906378446222028151974011155318570279924772592961445602763588753800951956026399571589945604400252461523121762572602414860825558607586023878901476216546070235090000004371455302228853001310728015021160017676025336820208678591358718746702046007371962794011019238279500080179730181205042211266258301759475761422134312017286322726838866510161343677505298288301561431608737486481015273444215698061460141184228451464839501349864191015025420013203991093858713430128101594871403630701231211793924689900011116544340661545410104214107866639134301014742164897366929009498468355969600240091627397184701478000851246763983932579008155478700293578320074539395442768391000712738389167684191006343132677866922680068860474245474859100621902309097094387005517519197293615250051167099952721723700425081508285940910004512817201304088250049959064050321213000418339817310371615003319714790153913720035267431783227010500381883972223480549003119919525596341330021652140279126627200221385043217966193002259778337783644030022959029709616087900231585596967782133002,
  323202034465844110352469715628626267803418565419745909859033137256538278855700329977313809523932603271289347760134296031500541638674084460303452473396884316802923386255443778467028155522189982059820271015036582980902202664995008336127011026408162727484122320252512940659282567502415162170386150707023896188437615372870235187023910160001402229385524307812367021162874496521526800208828314341112661202046773534209541409019242105410461931630181223674835066152501760360203492221281017290411928586277360161362080337938287701562237164309689673015276871435244863340141198388887221060301350431908730559003013206197678806812830128184661921650259301231514358703097470011117609518529627600104250310558034928701014860807209272376009502212419503547720091638758559256028200851577765082990827008156402983229467170074564087191491619800712801365720436922006344662672202899850068895789051274435100621979520578850742005519112649316010080051170190839005950100425137561248943344004513760896541746370049973668132760597400418360275050516739003319967253271935580035270019490924720900381902212930647367003119917920167985580021651785463806373200221376936697516582002259647332291379870022957287521681520000231565656565656013002,
  332553737025474550352539625635463674503419079317102908742033140970002091899330321024102044950519003173129149225655687031513148103452437060303537283538462928902923946256717875611028159150182083648240271038089372834499602666431153499458211026416931170665092270252565387696917991102415469363714095581023913800311027664790235285812102848347102229927406175242580021165779788436956760208980486957820197002047551769088371834019245989304496077280181242578674211271201761256991193759106017294555777729141970161380718203734394201563052533208000074015280338394967060310141212705257047680301351005548740840224013208426009869609430128268500018832352501231819559850963881011118683376473281140104286787997931658601014980284105080723009505980763984966690091650187440880046100851910555172721666008157331771722808770074588886397553814300712864583932029275006346197763335211890068931203955810131300622056913314218643005520709082296762550051173286066051089600425193667342449902004514705063110628010049988273012821924300418380724654403471003320219492546935980035272603300328616800381920403201021230003119916269067215260021651430505031895000221368834821729139002259516453501362380022955547373344403700231545741324920600002,
  342168260055706780352611456372471689003419607010352059994033144780825255630500321051147568604660003175014882726148535031526061426326033350303624105211659666902924519191768335169028162859713795425130271061645994626969702667897798568011027026425880423445454190252618883941526281002415782513876279263023931742914283744910235386395086508892502230478802972686904021168734330312132240209135147056149934102048342255758868145019249932007393513260181261757424062810501762166285272365677017298754952858704390161399593880037057401563877825520111040015283845516974862090141227179124597414201351585166928662325013210676279433136860128353115532183897301232127417607350403011119765976087308290104323541977225672101015100600545142266009509773519842856320091661684153787756300852245141831750750008158265082317529620074613793395000176900712928044417438028006347737961342944360068966719099374981500622134487449455567005522308496752339120051176385631481809100425249826487074977004515649699451380570041000287866849422600318401166101599481003320471507952527340035275183214947440200381938543118210885003119914572410302990021651075403763024900221360737590253007002259385701241227510022953809261046825100231525851197981812002,
  352052769641893190352685258996348016503420148858224759566033148691478016344910321078884650023561203176947655897123263031539288814539708730303712984401691000402925105348183005675028166652547278161210271085717022732109402669395564698036121026435014055905298730252673449459531268502416101731115540329023950022164106446140235488803864745432202231039873218476486021171738912470321990209292333032775014002049145175870435816019253934355324169430181281214826781655401763088248410597785017303010140326646880161418710174257599401564713152457944757015287393227431441640141241812067583571901352170819645306849013212948681379283750128438514876590266201232437952344079224011120857379333071510104360574296378909001015221761513262936009513590818042480740091673249023323971500852581532660310593008159202931593879560074638808518379454100712991747792107586006349283276304135320069002334622087088300622212243130330190005523910893190143500051179489532910999700425306038603355109004516594804005578690041001748507780766400318421599371748348003320723299463154460035277759238292432600381956632765714625003119912830313251370021650720160956304800221352645002721948002259255075338890510022952073181239084000231505986137365577002,
  362214621196830070352761085982867458703420705228474817257033152704491184629740321107330386148821003178928602130057271031552837638381402340303803968105077796402925705019693366828028170530481229560340271110313244138303202670925085145854826026444335705435584030252729104683154705102416427127615598515023968644077700227730235593069948405371702231610777926016826021174794337184641460209452083841177828202049960713594478891019257997195551746660181300954671874358701764023045249331640017307322034325872510161438069924162238101565558626367940317015290981956587466490141256605677890945601352762563713941150013215243411095685810128524704512860734301232751184566439359011121957648540201020104397886765456996601015343772016781538009517432790086745770091684882375966118500852919735280259980008160145336168425550074663932102743058300713055694671947432006350833718295727170069038050663888983300622290180502122037005525516272108526440051182597767939814300425362303611749606004517540375215732110041003209221883354900318442024444569446003320974867054090810035280331373877312000381974672226920210003119911042891793460021650364777565000600221344557058754283002259124575622545310022950339130379664400231486146095717378002,
  372661364300836700352838991159761838303421276498097600731033156822457567822450321136502281934224303180958881148805216031566715434727446130303897104350993783302926318506300325130028174495351609237320271135445662532733002672487005492644061026453849077946061720252785870416749778502416758817533435648023987614774364253030235699225363403486402232191680640701777021177901418847333680209614438999187822402050789055656957501019262121386569964730181320980796744891501764970842409353997017311691336972033390161457675998168596301566414360741421509015294612138815873690141271561561687411301353360456433034105013217560665485664470128611690948001958301233067134913894514011123066846408303920104435481204167332101015466637086646533009521299568017557720091696584539326202000853259757335102586008161092312694043140074689164483644146200713119885673329458006352389297393515200069073867364546935400622368299709621050005527124633996792450051185710334157694600425418621432641149004518486411525290270041004670006968430200318462441299857712003321226210701434840035282899625218238000381992661585104827003119909210261393390021650009254539108400221336473757953042002258994201920664280022948607104935217100231466331025801896002,
  383400747661385350352919029740390930703421863053554311617033161048033435097670321166418259728275703183039679598400407031580929910661788960303992442223045659202926946114402472757028178549032377428850271161125502460353502674081983873192540026463557949093765810252843767843238460502417096917032186647023100694047712985920225807302658658811202232782747477338443021181060984141285860209779438596614081302051630391371333692019266307798240347530181341297087252261701765931808513170571017316118758385821300161477531295644825301567280470225048818015298284212646905430141286681339536296901353964555579794033013219900642978220530128699480735492914901233385824160794541011124185036008681640104473359441897333301015590361777493352009525191284417196080091708355842152808100853601606490006157008162043877859909590074714505997136723800713184321413085402006353950023672096620069109784863650286900622446600897127224005528735979335209610051188827229142409400425474991986336416004519432911378649970041006130860851348200318482849917483550003321477330382108050035285463995833786800382010600923435213003119907332537247130021649653592825369900221328395099906059002258863954061997610022946877101380535400231446540880502659002,
  394440724195128200353001258358222734703422465291001508758033165383940015891400321197096668864218903185172211646499731031595488947170632870304090031881492991502927588156926854139028182693436247676240271187364213558864702675710691208691514026473466165532387640252902818530654125602417441544314547686023102662751442272070225917334914146239902233384147158088525021184273872213801990209947123302973443202052484912671908525019270557311931557680181361907478274042201766906114207029680017320605016776025620161497638747211291901568157070631354943015301998620803400370141301966646509483101354574919413626367013222263543538080900128788080475561006701233707273217089010011125312280786051000104511523317752728801015714951167721547009529108072409680530091720196614333091500853945290431820934008163000048391495640074739956979774726800713249002508504173006355515907204820890069145803300610781300622525084208450195005530350308595017990051191948450460084900425531415193066648004520379873221159840041007591781351576500318503250277392689003321728226073850860035288024489244904700382028490324967465003119905409834282910021649297793367281200221320321084186009002258733831875572890022945149116198528600231426775612821645002,
  405789456235221000353085735102141805303423083616525995967033169832965032389150321228556295461922603187357719597731940031610400602913963700304189924585916461502928244953462287636028186930515453732200271214173474871015002677373811443626790026483577646182868620252963044438791144702417792819656709034023104668232175004850226029355749064223202233996051050932688021187540934852661980201011753437531519401953352814147554945019274870820660292470181382815954275855001767893932183166478017325150838523358300161518001315044878301569044278949364569015305755810236342490141317419132301265301355191606679611991013224649568675797260128877496815459464701234031503129043729011126448644560271380104549974680595952501015840410359572159009533050065662137680091732107186894746300854290816869098513008163960841050557780074765517768611128000713313929577329317006357086958063739880069181922814661888600622603749786908898005531967622238438130051195073995665238800425587890972988302004521327295499129210041009052766292695600318523642359605998003321978897755220450035290581108974889800382046329872647265003119903442267161860021648941857105103500221312251710350564002258603835190695070022943423145880204000231407035175878929002,
  417455320866945120353172519552604822203423718446385196164033174397964266827080321260816372446177503189597474521215570031625673118075529090304292172718343034602928916830395289531028191262262530949480271241565199235584802679072041786842945026493896383525549170253024467925963060802418150865442820266023106711144341320430226143399330120303902234618633208665369021190863036664492920201029071366614372401954234293075850278019279249229233762810181404026549886882701768895437202266173017329756958265060290161538621993185899501569942213355297880015309556232160669640141333040461342964501355814676612006411013227058921457898790128967736449745945201234358535079959969011127594191528076020104588715389084614301015966744479205138009537017398386170740091744087892007996800854638193532110202008164926272635129480074791188701197004200713379103237756391006358663186319557290069218143544858192100622682597775331182005533587920718680280051198203862300815200425644419246183671004522275176659831400041010513813502396700318544026144219363003322229345405586780035293133858549354200382064119649309670003119901429950278610021648585784975873900221304186977942400002258473963836945120022941699186924639400231387319522912287002,
  429446915394655830353261672818662978603424370207253134200033179081863164361630321293896589785935203191892776891517465031641314918292802810304396829806836931402929604121048648989028195690711112410800271269551537758404202680806092956846866026504426444914230360253087111755871018802418515806199996067023108792153424606460226259500379935956802235252070408426013021194241055255482360201046670363143999301955129549457613743019283693454393766770181425543350481454801769910806116151728017334424118980289620161559503807847680501570850993223359954015313400342091345000141348832312918305001356444188937759856013229491806517097280129058806120562501201234688390390896373011128748986264809710104627747311710038901016093958676776828009541010205339223830091756139062987562600854987428172865421008165896359979512630074816970115580611300713444524108430245006360244602041577260069254465630074650000622761628316053379005535211204479952580051201338047898214400425700999932661369004523223515151511690041011974920812483900318564401611403554003322479569005130160035295682741496196400382081859737679220003119899372997761840021648229577913417100221296126886489332002258344217644180700022939977235838960400231367628607276841002,
  441773062943188940353353257575871174703425039336472154923033183887658472285920321327817104959197903194244957243325177031657334618668554510304503950549565290502930307165822703371028200217936740063430271298144884364798302682576689431422543026515171973912487890253150999104584171202418887768633870335023110911936137951070226377694185572330402235896542191774056021197675881414462190201064554733878317501956038786051852278019288204424962377590181447370492766778401770940217890694898017339153072076302300161580649817728780501571770739136616231015317288599879688400141364796381279546901357080203880057987013231948430062546870129150712617916733501235021090521393745011129913093726170990104667072326835917701016222058126517629009545028621825954080091768261034294634100855338528565130071008166871119954268740074842862350306483000713510192808442550006361831215297656950069290889209006004200622840841550920029005536837473957471190051204476549977329800425757632952357095004524172309423392770041013436086058870900318584768741404009003322729568534837730035298227761345568200382099550220369986003119897271523475100021647873236848355600221288071435504378002258214596442535030022938257289138321600231347962382444701002,
  454442818196895370353447338105104463903425726282310504058033188818419916380620321362598553648286703196655376840116170031673741027865595920304613590839347563202931026312339362679028204846057691124370271327357880434823802684384569701627773026526137191652587060253216153567633694202419266881664706057023113071180603238410226498016607178528002236552230905313812021201168419298386290201082728847557322401956962208411118630019292783081989255730181469512165376825501771983853628953926017343944577475424650161602063114327898301572701572897952846015321221469749973170141380934375764385601357722782161883362013234428999890155450129243462779964178901235356657070202202011131086579249959250104706692322737007901016351048026809585009549072783699594100091780454141538829500855691502504444132008167850569466208960074868865744414470500713576109957329026006363423036154153500069327414420166095600622920237621283457005538466729577467580051207619366046578600425814318225134088004525121557925680510041014897307081582200318605127514540781003322979343976500820035300768921629838400382117191179885401003119895125641017050021647516762708119500221280020624485838002258085100062416490022936539343345879300231328320802004581002,
  467465473279604870353543980332302878103426431504225905594033193877291915217310321398262060670461603199125428357111577031690543152286426710304725807788698226702931761915588937262028209577235820040850271357203419522820302686230486530247434026537326398217395290253282599167222326202419653276464070653023115270586532934840226620504086764186902237219321741878160021204719586620242070201101197135735622701957900024917289103019297430378900614860181491972609472539301773041896594541771017348799403702837530161623746822261508401573643617541126097015325199420336293870141397248020913642701358371985009599352013236933725392953490129337063493292146601235695111776011710011132269508557828430104746609197637954301016480933600264298009553142827363324090091792718721480178100856046357808140439008168834725458385910074894980637438839200713642276175066933006365020074675876640069364041401887210500622999816668003460005540098971757198630051210766493602937300425871055670783819004526071259109570850041016358581724753000318625477911208305003323228895312711870035303306225883573800382134782698618462003119892935463722410021647160156416959200221271974452917411002257955728334508560022934823394992769700231308703819661443002,
  480850563778805200353643251869165637603427155473135266858033199067495333226500321434829251148693803110165653657880470030707750200339379320304840659755371895202932514338079816764028214413677416268660271387694652162614802688115207214775273026548743974045606300253350360359550981802420047086492083248023117510865414593190226745193657097800402237898002782275381021208330314839413530201119964093625287601958852446817760970019302147281649839730181514756119348278301774114532235222308017353718327975161850161645704099584189801574596997341897453015329222924719692230141413739056589707601359027874156553350013239462817571513850129431521693204647801236036476518184775011133461947757044680104786824859752165301016611720093800755009557238889771637610091805055112031059400856403102315361965008169823604910083190074921207369407316900713708692082072376006366622340926036800069400770292319434800623079578831446933005541734200904955910051213917930131974000425927845209026593004527021411427255350041017819907836628200318645819911875298003323478222526861090035305839677643498300382152324858851579003119890701104662200021646803418895953100221263932920268208002257826481089768950022933109440618087600231289111389236131002,
  494607874917480230353745222054816900503427898671690650886033204392329273381790321472322261927807903110425015911136209030725371586793041080304958206368420645802933283949991056172028219357634078163340271418844990759942702690039513854999491026560394381360692180253419462042264362102420448447535243487023119792740698121590226872122950732560602238588465037608654021212001549354531000201139034280949182201959819688262078000019306934768869789650181537867043044679001775201948206741028017358702136289864990161667938138111708001575561837829257515015333292460465560510141430409238095764001359690511846702591013242016489044426020129526844364008693701236380773317492135011134663963342249340104827341227320769501016743412778723260009561361108431706750091817463652258165700856761743887079689008170817224836804790074947546280840148300713775358299197677006368229844966196440069437601229430009200623159524251487507005543372417420074120051217073673107879900425984686759512030004527972013331926740041019281283269561200318666153497084613003323727325603133470035308369280448467700382169817742756748003119888422676644630021646446551063022000221255896025992916002257697358159429400022931397476768864500231269543464665012002]

/-- Rows from 1600 on. -/
def besselRows16 : List Nat := [
  508747447877096370353849961998465332203428661594561654863033209855172910359860321510763753241069503110690778711020278030743416937220667280305078508554773420402934071129327921223028224411403603266360271450668114573538902692004203625270403026572282165623936830253489929562017397902420857497744850076023122116947985852120227001330209161528002239290902492174314021215734249698837590201158412322804895201960801966338986136019311793832026793150181561309782967927301776304334396889582017363751623515487720161690452163746867701576538265796738500015337408509661311170141447260336295814901360359960838260839013244594954058827460129623038539301870501236728024336851192011135875622197227900104868160228651685901016876016950799522009565509621404752200091829944682384455400857122290406110350008171815602290266140074973997712749170500713842275447728763006369842596856219330069474534351002676100623239653067505211005545013621692940380051220233719993506800426041580241819825004528923063277785180041020742705880014600318686478647453046003323976204526506320035310895037839436800382187261432395357003119886100292215580021646089553832935300221247863769531816002257568359374995210022929687500000042000231249999999999604002]

/-- All rows. -/
def besselRows : List Nat :=
  besselRows0 ++
  besselRows1 ++
  besselRows2 ++
  besselRows3 ++
  besselRows4 ++
  besselRows5 ++
  besselRows6 ++
  besselRows7 ++
  besselRows8 ++
  besselRows9 ++
  besselRows10 ++
  besselRows11 ++
  besselRows12 ++
  besselRows13 ++
  besselRows14 ++
  besselRows15 ++
  besselRows16

end Libgrpp
