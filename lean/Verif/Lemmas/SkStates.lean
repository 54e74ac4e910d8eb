import Verif.Lemmas.SkCheck

/-! # The check of the table, a hundred rows at a time

Generated: the state (values of the orders 7 to 1, enclosure of the exponential, error bound) at every hundredth row, and
the check from each to the next, evaluated by the kernel. -/

namespace Libgrpp

/-- State at row 0. -/
def skV0 : List ℤ := [4539991365976496346005897053382126533255543076, 4539989755708786235093288319296878274521838520, 4539986535181923354691050475234568169742936440,
  4539980094153869462582059125046115509889813641, 4539967212174776662162636045109638263707380433, 4539941448447633523597518518683054263307800627,
  4539889921686464676948782930710559678150228178]

/-- Exponential at row 0. -/
def skE0 : ℕ × ℕ := (4539992976248485153559151556055061023791808880,
  4539992976248485153559151556055061023791808891)

/-- Error bound at row 0. -/
def skErr0 : ℕ := 10000000000000000000000000000

/-- State at row 100. -/
def skV1 : List ℤ := [7485178611604518149920032638150655863834503899, 7485174234458152789921062285916922573434906035, 7485165480203772961146095475385519904024090035,
  7485147971810064827752499787465381703241626359, 7485112955367798535456162414697465428695196625, 7485042923518697482784278946533164207983021799,
  7484902862926716408800099864403404226863864794]

/-- Exponential at row 100. -/
def skE1 : ℕ × ℕ := (7485182988770059147118931935455516611298689813,
  7485182988770059147118931935455516611298689966)

/-- Error bound at row 100. -/
def skErr1 : ℕ := 129523790551548320170059095569128

/-- State at row 200. -/
def skV2 : List ℤ := [12340968510332218938310669378601885240333652873, 12340956612082421056494555162065980809553435378, 12340932815754698720907130136097370674627861613,
  12340885223614865840399678156791125606229965812, 12340790040882001478398134108854231043322519956, 12340599680056541063875708466893269802047683590,
  12340218972325881635013866804022364529424819695]

/-- Exponential at row 200. -/
def skE2 : ℕ × ℕ := (12340980408667954949763669073003382607215283031,
  12340980408667954949763669073003382607215283415)

/-- Error bound at row 200. -/
def skErr2 : ℕ := 343323908137066425430923404266565

/-- State at row 300. -/
def skV3 : List ℤ := [20346804558186139632857486526574160991412357999, 20346772215693001573926138585802147789600534721, 20346707531476984027216523736903029086019535223,
  20346578165355661892766533589340713601170009799, 20346319440044905493524084032380010288304632582, 20345802010218052328557116862996611788079844128,
  20344767212944309265070555465075586895622877324]

/-- Exponential at row 300. -/
def skE3 : ℕ × ℕ := (20346836901064417436893343048706638729731152283,
  20346836901064417436893343048706638729731153042)

/-- Error bound at row 300. -/
def skErr3 : ℕ := 696263082296963680646097030136505

/-- State at row 400. -/
def skV4 : List ℤ := [33546174873872027515352839172198863548585489949, 33546086959218886917906003338839333820827706794, 33545911133364482702447302693229762033509839331,
  33545559492010841564719878932729187181647989954, 33544856240367206718823592757379691456572707550, 33543449830263462167842025120780119284331233283,
  33540637289576883157390955948988378691327426207]

/-- Exponential at row 400. -/
def skE4 : ℕ × ℕ := (33546262790251183882138912578086101931090012665,
  33546262790251183882138912578086101931090014041)

/-- Error bound at row 400. -/
def skErr4 : ℕ := 1278891670454053881761545320744511

/-- State at row 500. -/
def skV5 : List ℤ := [55308198036331053949304310906633089031507820091, 55307959065613766267393883634893902049808505406, 55307481139648082370943165863210783034616466927,
  55306525334119963705589140516828772673707422768, 55304613862259774247975436219941734207420741761, 55300791336072748856134421366643511745254625738,
  55293147536079637963146672838605689144071620366]

/-- Exponential at row 500. -/
def skE5 : ℕ × ℕ := (55308437014783358310200008853035719781133657010,
  55308437014783358310200008853035719781133659415)

/-- Error bound at row 500. -/
def skErr5 : ℕ := 2240689330195093062322349236366471

/-- State at row 600. -/
def skV6 : List ℤ := [91187546958306659927887048489043511624566830434, 91186897395824319244028901640875214444207972535, 91185598340176442663497104135228093167176964923,
  91183000436805801931535968128038382241443626045, 91177805253738669369812104741779857913073665916, 91167416758222194111398801725397394551306801793,
  91146645377424469170249298461850496556986323670]

/-- Exponential at row 600. -/
def skE6 : ℕ × ℕ := (91188196555451620800313608440928262647372450649,
  91188196555451620800313608440928262647372454739)

/-- Error bound at row 600. -/
def skErr6 : ℕ := 3828415640037485372809228604415587

/-- State at row 700. -/
def skV7 : List ℤ := [150342153570761769795926532077318675424517957085, 150340387999088860106696265231155587218346353841, 150336857166325863367267470547291841417492679037,
  150329796432361473096573419890224426091940854531, 150315677758370278816278039142059307901159728816, 150287448789212932453495620377375309595233873989,
  150231015975428381360463297977141849497372160158]

/-- Exponential at row 700. -/
def skE7 : ℕ × ℕ := (150343919297757244738290333216765383000051292316,
  150343919297757244738290333216765383000051299195)

/-- Error bound at row 700. -/
def skErr7 : ℕ := 6449418934685215655666294074277701

/-- State at row 800. -/
def skV8 : List ℤ := [247870418196891328011423820214816976222118302004, 247865619423073160469188997143248050859612687722, 247856023266829404705413494066221082275400207285,
  247836835127140005277892926371984778358784218463, 247798471360639904018502625452715434666356548884, 247721781344227553294760686698144116572742589454,
  247568513773044953085968023729566034198940527045]

/-- Exponential at row 800. -/
def skE8 : ℕ × ℕ := (247875217666635842304516743081666789150647952695,
  247875217666635842304516743081666789150647964171)

/-- Error bound at row 800. -/
def skErr8 : ℕ := 10776145920292818448215016528081508

/-- State at row 900. -/
def skV9 : List ℤ := [408664098761952419384945649948833831385613436724, 408651056795086596069779911538560089587709270136, 408624979093135485526448689851849683799499309341,
  408572842374394456416910696902793052681277959747, 408468624951709130660422884312996241089832771730, 408260357988155212936763391935913166039717486964,
  407844327057072089151642247354674066642291331747]

/-- Exponential at row 900. -/
def skE9 : ℕ × ℕ := (408677143846406699346470268472076840839065655367,
  408677143846406699346470268472076840839065674426)

/-- Error bound at row 900. -/
def skErr9 : ℕ := 17918665140399768465646436243603165

/-- State at row 1000. -/
def skV10 : List ℤ := [673759245188160406202754545078645686563416684226, 673723804429969910389604497417745687118109357342, 673652950812926227179915640841165012198479154003,
  673511327201793727087032787990385800653303098578, 673228330548587743888956897742920492445348151766, 672663087752239812287103771000558603944909635430,
  671534848911806861641668609210977657830989115468]

/-- Exponential at row 1000. -/
def skE10 : ℕ × ℕ := (673794699908546709663604842314842424884958486634,
  673794699908546709663604842314842424884958518183)

/-- Error bound at row 1000. -/
def skErr10 : ℕ := 29709467051242559796230250781155023

/-- State at row 1100. -/
def skV11 : List ℤ := [1110803302508791182056198375934933525192794588453, 1110707013694829667711065783301088279124857719953, 1110514560885241077783047188534646397522298498376,
  1110130029168486225701862560126801829774007765370, 1109362085237037395108018095864484930033347886037, 1107829547085008365344512375100781683629279978642,
  1104774484859381632164422081128579168474896461455]

/-- Exponential at row 1100. -/
def skE11 : ℕ × ℕ := (1110899653824230649614313428693052777153926723963,
  1110899653824230649614313428693052777153926776108)

/-- Error bound at row 1100. -/
def skErr11 : ℕ := 49173609242049619187646773146963733

/-- State at row 1200. -/
def skV12 : List ℤ := [1831302088953628305617012844391154025357317357899, 1831040568610473927222596554967427163068689677809, 1830518085719384959251619404373723578561841518376,
  1829474789264224653025926979420348517076487140661, 1827393188162120063430741683649926592753717165735, 1823244896998302567033168360771132586105109565206,
  1814992791780974035498333212702437573981093798867]

/-- Exponential at row 1200. -/
def skE12 : ℕ × ℕ := (1831563888873418029371802127324124221191206711403,
  1831563888873418029371802127324124221191206797498)

/-- Error bound at row 1200. -/
def skErr12 : ℕ := 81304827634885422609153515846865814

/-- State at row 1300. -/
def skV13 : List ℤ := [3019027188499791457839149557143871938263442264151, 3018317283809495096232883699228605226507826205543, 3016899962551578781976532917261020609685505931471,
  3014072754707737945688958455894693426459449605854, 3008440524991730679160637277496297704272319399928, 2997242154966196809447207663743729985977394407992,
  2975041827262056519481121505861412957991560327348]

/-- Exponential at row 1300. -/
def skE13 : ℕ × ℕ := (3019738342231850073978629236361984507166053152249,
  3019738342231850073978629236361984507166053294326)

/-- Error bound at row 1300. -/
def skErr13 : ℕ := 134346733375572054021214497580078298

/-- State at row 1400. -/
def skV14 : List ℤ := [4976775917414127661023808915045194385048022058952, 4974850567073466770770733965215625201440695464408, 4971010931738596881532355754316643339950983160379,
  4963364641182007543700083320528110249106706555387, 4948170145479613173220552546868046131563870482774, 4918072033882422663106164556748443665466524140653,
  4858735157374205875892600377430778465601216159123]

/-- Exponential at row 1400. -/
def skE14 : ℕ × ℕ := (4978706836786394297934241565006177663169959099203,
  4978706836786394297934241565006177663169959333592)

/-- Error bound at row 1400. -/
def skErr14 : ℕ := 221907800316973508037181791431732937

/-- State at row 1500. -/
def skV15 : List ℤ := [8203260858498867306013381340790797633458446555020, 8198046603934827387862322354284420655373677896294, 8187667066629890555217588115240828918662253825734,
  8167053353166964310153199995318901099190109721545, 8126255894782355867416757969327652772790563820914, 8045926924846476988206532472128268798276868837983,
  7888973429254962334404401600276907787256133046793]

/-- Exponential at row 1500. -/
def skE15 : ℕ × ℕ := (8208499862389879516952867446715980783780411904225,
  8208499862389879516952867446715980783780412290803)

/-- Error bound at row 1500. -/
def skErr15 : ℕ := 366452765978634092774955582454144351

/-- State at row 1600. -/
def skV16 : List ℤ := [13519330579582575581697255980076303913614282431622, 13505242246823676477704197243208942510257765811246, 13477280633146511533014373675780668236895087038711,
  13421991550386802153116098846572431655363690948517, 13313272938565030508204474510707925033593407847262, 13101248471442377127037473764992636966066545443859,
  12692801104297249644372675589897758878628745813580]

/-- Exponential at row 1600. -/
def skE16 : ℕ × ℕ := (13533528323661269189399949497248440340763154265567,
  13533528323661269189399949497248440340763154903070)

/-- Error bound at row 1600. -/
def skErr16 : ℕ := 605066202611527545322050562812771723

/-- State at row 1700. -/
def skV17 : List ℤ := [22274613361463494554120287460453673213687951501786, 22236690368468004088004324057796206277922968142818, 22161777222845848107709119558981495534028243875248,
  22014673371762186179462686041132808150534969979449, 21728341364845282065967500751412888156533178115591, 21178197962544579629655232789879799049903528779989,
  20141327798275240949948235212830399203287968375568]

/-- Exponential at row 1700. -/
def skE17 : ℕ × ℕ := (22313016014842982893328047076401252134217162399546,
  22313016014842982893328047076401252134217163450763)

/-- Error bound at row 1700. -/
def skErr17 : ℕ := 998966964780111213689640242492975062

/-- State at row 1800. -/
def skV18 : List ℤ := [36684385973968165511015645133973115457624447329269, 36582903556377539566132197111234558459043482567816, 36383909537108089365166609459152959187184653115075,
  35997327683633101303025402111724578561947143653878, 35256487929780775901805561394190210942795599323050, 33864799640345217982141313399738633759172372056430,
  31326168751822283404899488751735497184373595372911]

/-- Exponential at row 1800. -/
def skE18 : ℕ × ℕ := (36787944117144232159552377016146086744581112218449,
  36787944117144232159552377016146086744581113951772)

/-- Error bound at row 1800. -/
def skErr18 : ℕ := 1649214547759695301685278457453836552

/-- State at row 1900. -/
def skV19 : List ℤ := [60375126962485336085652327531853690993777973137971, 60105996864326350767714969455859649633843729105081, 59584173625968541614978384696716801815175025511965,
  58586647532508898376155741692645934036125449615798, 56718424449227773420394345531652789669703123900868, 53321727999488125116642672732400055910927820772251,
  47407698418010668087299766395387778094284718489647]

/-- Exponential at row 1900. -/
def skE19 : ℕ × ℕ := (60653065971263342360379953499118045344191812089944,
  60653065971263342360379953499118045344191814947901)

/-- Error bound at row 1900. -/
def skErr19 : ℕ := 2722636992649074826830001253986572775

/-- State at row 2000. -/
def skV20 : List ℤ := [99259381992283028267042408627469039134261041941487, 98555109129743510409843935883870379843581960682144, 97211977044690930593565586220626898026397526867293,
  94703282949724591757650325323693904123962534235402, 90154267736969571404980281735430941269831193029873, 82246703342411321823620757647082414420067838665745,
  69314718055994530941723326523421270132825823496618]

/-- Exponential at row 2000. -/
def skE20 : ℕ × ℕ := (99999999999999999999999999999999999999999997594759,
  100000000000000000000000000000000000000000002306965)

/-- Error bound at row 2000. -/
def skErr20 : ℕ := 4494632422316777146615538386259935296

/-- State at row 2001. -/
def skV21 : List ℤ := [99753374662979776643537111440943131596106119436964, 99042354686361395196189777657227740636093791353438, 97686622103065625380808396790195282566690465565695,
  95155083817560580297556987543617299138117608498279, 90566368729975036007801371490471110393522478260281, 82593902453524302291216899081286822358033555084807,
  69565030555669010650923686049555942751873442541230]

/-- Exponential at row 2001. -/
def skE21 : ℕ × ℕ := (100501252085940106338356624112406858073487551442097,
  100501252085940106338356624112406858073487556177925)

/-- Error bound at row 2001. -/
def skErr21 : ℕ := 4517219514891233313181445614331593263

theorem skRun0 : skRun 9 skRows0 skV0 skE0 skErr0 skV1 skE1 skErr1 = true := by decide +kernel

theorem skRun1 : skRun 9 skRows1 skV1 skE1 skErr1 skV2 skE2 skErr2 = true := by decide +kernel

theorem skRun2 : skRun 9 skRows2 skV2 skE2 skErr2 skV3 skE3 skErr3 = true := by decide +kernel

theorem skRun3 : skRun 9 skRows3 skV3 skE3 skErr3 skV4 skE4 skErr4 = true := by decide +kernel

theorem skRun4 : skRun 9 skRows4 skV4 skE4 skErr4 skV5 skE5 skErr5 = true := by decide +kernel

theorem skRun5 : skRun 9 skRows5 skV5 skE5 skErr5 skV6 skE6 skErr6 = true := by decide +kernel

theorem skRun6 : skRun 9 skRows6 skV6 skE6 skErr6 skV7 skE7 skErr7 = true := by decide +kernel

theorem skRun7 : skRun 9 skRows7 skV7 skE7 skErr7 skV8 skE8 skErr8 = true := by decide +kernel

theorem skRun8 : skRun 9 skRows8 skV8 skE8 skErr8 skV9 skE9 skErr9 = true := by decide +kernel

theorem skRun9 : skRun 9 skRows9 skV9 skE9 skErr9 skV10 skE10 skErr10 = true := by decide +kernel

theorem skRun10 : skRun 9 skRows10 skV10 skE10 skErr10 skV11 skE11 skErr11 = true := by decide +kernel

theorem skRun11 : skRun 9 skRows11 skV11 skE11 skErr11 skV12 skE12 skErr12 = true := by decide +kernel

theorem skRun12 : skRun 9 skRows12 skV12 skE12 skErr12 skV13 skE13 skErr13 = true := by decide +kernel

theorem skRun13 : skRun 9 skRows13 skV13 skE13 skErr13 skV14 skE14 skErr14 = true := by decide +kernel

theorem skRun14 : skRun 9 skRows14 skV14 skE14 skErr14 skV15 skE15 skErr15 = true := by decide +kernel

theorem skRun15 : skRun 9 skRows15 skV15 skE15 skErr15 skV16 skE16 skErr16 = true := by decide +kernel

theorem skRun16 : skRun 9 skRows16 skV16 skE16 skErr16 skV17 skE17 skErr17 = true := by decide +kernel

theorem skRun17 : skRun 9 skRows17 skV17 skE17 skErr17 skV18 skE18 skErr18 = true := by decide +kernel

theorem skRun18 : skRun 9 skRows18 skV18 skE18 skErr18 skV19 skE19 skErr19 = true := by decide +kernel

theorem skRun19 : skRun 9 skRows19 skV19 skE19 skErr19 skV20 skE20 skErr20 = true := by decide +kernel

theorem skRun20 : skRun 6 skRows20 skV20 skE20 skErr20 skV21 skE21 skErr21 = true := by decide +kernel

end Libgrpp
