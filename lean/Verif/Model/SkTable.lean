/-! # The numbers of `specfunc_fermi_sk_table`, specfunc_fermi_sk.c:127-end

Generated from the source text: each literal of the source, times `-10^21`, is exactly the integer here (no literal is
positive). One definition per hundred rows of the table (`x = -10 + 0.005 i`), in the order of the source; the columns are
`k = -2, ..., 7`. -/

namespace Libgrpp

/-- Rows from 0 on. -/
def skRows0 : List (List Nat) := [
  [45391685990113197, 45395807735951667, 45397868702434395, 45398899216864647, 45399414484476340, 45399672121747767, 45399800941538702, 45399865351819237, 45399897557087868, 45399913659764962],
  [45619171238036491, 45623334405267251, 45625416083860072, 45626456954816718, 45626977400848726, 45627237627382691, 45627367741822347, 45627432799433060, 45627465328368721, 45627481592879991],
  [45847796343220638, 45852001348092632, 45854103946941398, 45855155278504492, 45855680954999217, 45855943796817704, 45856075218917340, 45856140930363966, 45856173786219542, 45856190214191426],
  [46077567015030746, 46081814277975649, 46083938007317909, 46084999904613441, 46085530864136284, 46085796347522806, 46085929090424451, 46085995462278069, 46086028648339152, 46086045241414441],
  [46308488991408086, 46312778937082356, 46314924009268341, 46315996578478763, 46316532874123416, 46316801025625619, 46316935102603370, 46317002141501126, 46317035661086304, 46317052420924329],
  [46540568039012988, 46544901096340245, 46547067725854120, 46548151074228989, 46548692759622679, 46548963606055025, 46549099030516383, 46549166743162122, 46549200599623356, 46549217527900089],
  [46773809953368244, 46778186555582192, 46780374959063509, 46781469194930133, 46782016324239080, 46782289892685500, 46782426678172707, 46782495071337658, 46782529268060579, 46782546366468853],
  [47008220559003428, 47012641143691174, 47014851539956509, 47015956772730870, 47016509400665596, 47016785718482219, 47016923878673622, 47016992959197035, 47017027499601318, 47017044769850981],
  [47243805709599856, 47248270718745617, 47250503328810437, 47251619669008088, 47252177850828961, 47252456945646829, 47252596494358255, 47252666269148137, 47252701156687805, 47252718600505883],
  [47480571288136236, 47485081168165515, 47487336215266336, 47488463774513412, 47489027566036163, 47489309465764015, 47489450416950115, 47489520892983903, 47489556131147710, 47489573750278582],
  [47718523207035076, 47723078408859345, 47725356118475977, 47726495009520431, 47727064467121690, 47727349199948741, 47727491567704435, 47727562752029674, 47727598344341432, 47727616140547009],
  [47957667408309867, 47962268387371585, 47964568987249715, 47965719323972531, 47966294504595516, 47966582098994292, 47966725897556129, 47966797797291196, 47966833747310112, 47966851722370035],
  [48198009863712943, 48202657080031075, 48204980800205017, 48206142697631644, 48206723658791838, 48207014143520991, 48207159387268596, 48207232009603411, 48207268320924501, 48207286476636265],
  [48439556574884015, 48444250493100064, 48446597565915780, 48447771140227580, 48448357940018467, 48448651344125663, 48448798047583198, 48448871399779951, 48448908076034324, 48448926414213511],
  [48682313573499624, 48687054662924059, 48689425323062340, 48690610691608254, 48691203388707147, 48691499741531995, 48691647919369583, 48691722008763423, 48691759053618705, 48691777576099129],
  [48926286921423170, 48931075656082300, 48933470140582302, 48934667421890544, 48935266075564439, 48935565406741410, 48935715073776577, 48935789907776400, 48935827324937065, 48935846033570978],
  [49171482710855758, 49176319569539184, 49178738117822047, 49179947431611989, 49180552101723497, 49180854441184859, 49181005612384095, 49181081198473240, 49181118991680986, 49181137888339251],
  [49417907064487823, 49422792530796241, 49425235384689064, 49426456851883185, 49427067598896519, 49427372976875363, 49427525667355544, 49427602013092554, 49427640186126705, 49427659272698987],
  [49665566135651427, 49670500698044986, 49672968101805021, 49674201844540985, 49674818729528000, 49675127176561282, 49675281401591192, 49675358514610592, 49675397071288442, 49675416349683409],
  [49914466108473402, 49919450260320532, 49921942460659575, 49923188602302480, 49923811686948784, 49924123233880313, 49924279008882226, 49924356896895241, 49924395841072443, 49924415313217931],
  [50164613198029215, 50169647437655957, 50172164683765011, 50173423348919684, 50174052695530798, 50174367373514379, 50174524714065537, 50174603384860913, 50174642720431866, 50174662388275101],
  [50416013650497568, 50421098481237356, 50423641024811555, 50424912339335038, 50425548010842643, 50425865851345177, 50426024773179366, 50426104234624114, 50426143965522380, 50426163831030137],
  [50668673743315841, 50673809673559848, 50676377768823616, 50677661859837738, 50678303919805953, 50678624954610555, 50678785473619705, 50678865733659909, 50678905863858553, 50678925929017390],
  [50922599785336250, 50927787328584167, 50930381232316645, 50931678228220727, 50932326740852480, 50932651002061685, 50932813134297437, 50932894200959033, 50932934734471065, 50932955001287502],
  [51177798116982817, 51183037791894235, 51185657763454915, 51186967793938624, 51187622824082038, 51187950344121028, 51188114105796316, 51188195987185897, 51188236928064670, 51188257398565378],
  [51434275110409072, 51439567440855276, 51442213742209980, 51443536938266278, 51444198551421185, 51444529363041002, 51444694770531719, 51444777474837363, 51444818827176938, 51444839503408980],
  [51692037169656647, 51697382684772993, 51700055580520014, 51701392074458273, 51702060336782764, 51702394473063569, 51702561542910188, 51702645078402249, 51702686846337856, 51702707730368858],
  [51951090730814508, 51956489965053320, 51959189722449937, 51960539647909133, 51961214626226154, 51961552120580584, 51961720869489799, 51961805244521751, 51961847432230176, 51961868526148536],
  [52211442262179087, 52216895755363102, 52219622644352211, 52220986136314342, 52221667898118383, 52222008784294861, 52222179229141269, 52222264452150542, 52222307063850532, 52222328369765653],
  [52473098264415231, 52478606561791511, 52481360855028707, 52482738049832218, 52483426663296082, 52483770975382181, 52483943133209970, 52484029212718793, 52484072252671512, 52484093772713974],
  [52736065270717824, 52741628923012297, 52744410895893050, 52745801931246530, 52746497465228136, 52746845237654004, 52747019125678656, 52747106070294897, 52747149542804329, 52747171279126144],
  [53000349846974389, 53005969410446859, 53008779341134106, 53010184356130035, 53010886880179257, 53011238147721078, 53011413783331083, 53011501601749135, 53011545511162512, 53011567465937309],
  [53265958591928294, 53271634628428116, 53274472797880015, 53275891933008633, 53276601517374338, 53276956315157776, 53277133715916389, 53277222416918011, 53277266767626257, 53277288943049518],
  [53532898137343009, 53538631214365154, 53541497906363208, 53542931303526630, 53543648019163637, 53544006382667379, 53544185566314350, 53544275158769556, 53544319955207729, 53544342353497006],
  [53801175148166954, 53806965838908789, 53809861340086230, 53811309142612554, 53812033061188775, 53812395026248033, 53812576010701409, 53812666503569362, 53812711750217092, 53812734373612206],
  [54070796322699305, 54076645206117898, 54079569805988297, 54081032158645998, 54081763352549560, 54082128955359711, 54082311758717605, 54082403161047503, 54082448862429438, 54082471713192733],
  [54341768392756595, 54347676053626539, 54350630044612781, 54352107093625178, 54352845635971678, 54353214913091832, 54353399553634251, 54353491874566244, 54353538035252506, 54353561115669051],
  [54614098123840131, 54620065152812042, 54623048830275552, 54624540723335394, 54625286687975225, 54625659676331924, 54625846172522567, 54625939421288663, 54625986045895305, 54626009358273151],
  [54887792315304259, 54893819308963777, 54896832971234039, 54898339857518289, 54899093319044011, 54899470055934881, 54899658426423034, 54899752612348017, 54899799705537472, 54899823252207864],
  [55162857800525427, 55168945361452854, 55171989309857272, 55173511340042020, 55174272373795824, 55174652896893353, 55174843160515688, 55174938293018054, 55174985859499638, 55175009642817238],
  [55439301447072168, 55445450183902745, 55448524722796682, 55450062049072219, 55450830731153449, 55451215078508688, 55451407254291232, 55451503342884145, 55451551387414481, 55451575409757617],
  [55717130156875839, 55723340684360512, 55726446121157812, 55727998897243854, 55728775304516611, 55729163514563056, 55729357621722994, 55729454676015223, 55729503203398757, 55729527467169654],
  [55996350866402288, 56002623805469197, 56005760450672860, 56007328831833888, 56008113041934737, 56008505153492099, 56008701211439801, 56008799241136669, 56008848256226107, 56008872763851163],
  [56276970546824299, 56283306524640844, 56286474691874082, 56288058834934870, 56288850926280603, 56289246978558755, 56289445006899619, 56289544021804001, 56289593529500839, 56289618283430810],
  [56558996204194992, 56565395854230503, 56568595860268100, 56570195923629414, 56570995975424877, 56571396008027705, 56571596026564195, 56571696036577473, 56571746041832462, 56571771044542739],
  [56842434879621974, 56848898841711024, 56852131006511009, 56853747150165426, 56854555242411444, 56854959295340871, 56855161324074430, 56855262339197509, 56855312847011159, 56855338101002006],
  [57127293649442453, 57133822569848827, 57137087216584431, 57138719602132365, 57139535815633707, 57139943929293659, 57140147988426789, 57140250018761071, 57140301034184131, 57140326541980953],
  [57413579625399144, 57420174156880455, 57423471611972432, 57425120402638245, 57425944819011771, 57426357034212235, 57426563144150427, 57426666199898838, 57426717728032831, 57426743492186412],
  [57701299954817158, 57707960756690020, 57711291349839298, 57712956710487646, 57713789412170419, 57714205770131508, 57714413951485337, 57714518042953353, 57714570088951066, 57714596112037821],
  [57990461820781607, 57997189558987627, 58000553623208231, 58002235720360546, 58003076790618101, 58003497332974174, 58003707606561358, 58003812744158012, 58003865313224029, 58003891597846267],
  [58281072442316272, 58287867789488549, 58291265661140928, 58292964662992075, 58293814185926699, 58294238954730536, 58294451341578011, 58294557535816947, 58294610633208150, 58294637181994323],
  [58573139074563026, 58580002710093385, 58583434728918023, 58585150805353112, 58586008865912308, 58586437903639305, 58586652424985325, 58586759686485842, 58586813317511949, 58586840133116949],
  [58866669008962203, 58873601619069155, 58877068128220539, 58878801450831862, 58879668134816817, 58880101484369247, 58880318161665503, 58880426501153647, 58880480671177732, 58880507756283110],
  [59161669573433914, 59168671851231190, 59172173197312078, 59173923939416353, 59174799333490517, 59175237038201813, 59175455893115571, 59175565321425158, 59175620035864206, 59175647393178476],
  [59458148132560138, 59465220778125966, 59468757311222109, 59470525647877715, 59471409839575485, 59471851943214543, 59472072997630851, 59472183525704612, 59472238790030029, 59472266422288916],
  [59756112087767848, 59763255808214953, 59766827881930026, 59768613989954583, 59769507067690011, 59769953614465635, 59770176890489465, 59770288529380067, 59770344349118276, 59770372259085006],
  [60055568877512961, 60062784387059234, 60066392358550215, 60068196416538234, 60069098469613896, 60069549504179156, 60069775024137637, 60069887785008848, 60069944165741775, 60069972356207349],
  [60356525977465225, 60363813997505113, 60367458227517969, 60369280415858689, 60370191534474627, 60370647101931345, 60370874888375999, 60370988782503777, 60371045729869485, 60371074203652935],
  [60658990900694079, 60666352159870680, 60670033012776459, 60671873513671886, 60672793788934633, 60673253934837892, 60673484010546865, 60673599049320484, 60673656569013682, 60673685328962403],
  [60962971197855376, 60970406432133270, 60974124275964502, 60975983273447654, 60976912797379275, 60977377567741987, 60977609955722360, 60977726150645564, 60977784248418182, 60977813297408162],
  [61268474457379021, 61275984410117832, 61279739616605300, 61281617296558594, 61282556162105980, 61283025603403460, 61283260326893535, 61283377689585678, 61283436371247462, 61283465712183596],
  [61575508305657621, 61583093727686294, 61586886672296284, 61588783222470109, 61589731523514164, 61590205682688815, 61590442765160403, 61590561307357621, 61590620578776733, 61590650214593103],
  [61884080407235983, 61891742056927862, 61895573118899591, 61897488728931044, 61898446560296210, 61898925484762187, 61899164949923022, 61899284683479398, 61899344550582928, 61899374484243120],
  [62194198465001657, 62201937108350252, 62205806670733823, 62207741532165759, 62208708989629387, 62209192727277307, 62209434599073377, 62209555535962122, 62209616004736736, 62209646239234136],
  [62505870220376240, 62513686631071841, 62517595080766535, 62519549387066644, 62520526567368597, 62521015166570426, 62521259469188370, 62521381621503014, 62521442697995578, 62521473236353594],
  [62819103453507923, 62826998413014886, 62830946140807838, 62832920087388017, 62833907088240336, 62834400597854139, 62834647355723661, 62834770735679287, 62834832425997410, 62834863271269914],
  [63133905983464770, 63141880281099557, 63145867681704839, 63147861465940748, 63148858386037434, 63149356855412287, 63149606093208609, 63149730713143084, 63149793023455756, 63149824178727247],
  [63450285668428864, 63458340101439119, 63462367573537156, 63464381394787877, 63465388333814815, 63465891812795720, 63466143555442062, 63466269427817207, 63466332364355444, 63466363832741446],
  [63768250405891894, 63776385779535914, 63780453725813393, 63782487785441413, 63783504844086222, 63784013383019164, 63784267655689182, 63784394793092096, 63784458362149490, 63784490146796846],
  [64087808132851082, 64096025260478433, 64100134087668499, 64102188589059859, 64103215869022045, 64103729518758925, 64103986346879341, 64104114762023569, 64104178969957013, 64104211074044183],
  [64408966826006513, 64417266529139298, 64421416648062269, 64423491796646880, 64424529400647986, 64425048212551743, 64425307621804759, 64425437327531672, 64425502180761907, 64425534607499309],
  [64731734501959390, 64740117610374354, 64744309435978701, 64746405439250891, 64747453471044754, 64747977496994543, 64748239513320456, 64748370522600460, 64748436027612790, 64748468780243069],
  [65056119217411166, 65064586569222595, 65068820520626549, 65070937588165742, 65071996152548864, 65072525444945221, 65072790094545063, 65072922420478897, 65072988583823773, 65073021665622223],
  [65382129069363628, 65390681511107160, 65394958011640508, 65397096355132272, 65398165557954335, 65398700169724377, 65398967479062480, 65399101134882561, 65399167963176301, 65399201377451053],
  [65709772195320196, 65718410582037400, 65722730059283865, 65724889892541027, 65725969840715412, 65726509825318180, 65726779821124830, 65726914820196593, 65726982320121960, 65727016070214457],
  [66039056773488020, 66047781968811873, 66052144854651789, 66054326393635821, 66055417195150392, 66055962606582149, 66056235315856271, 66056371671679428, 66056439849986368, 66056473939271636],
  [66369991022981114, 66378803899222317, 66383210629875864, 66385414092718444, 66386515856646229, 66387066749445936, 66387342199457776, 66387479925667742, 66387548789174057, 66387583221061004],
  [66702583204024624, 66711484642258757, 66715935658329529, 66718161265354430, 66719274101864628, 66719830531119284, 66720108749413200, 66720247859782393, 66720317415374405, 66720352193306201],
  [67036841618159916, 67045832508315519, 67050328254834586, 67052576228579617, 67053700248948545, 67054262270298820, 67054543284695943, 67054683793135204, 67054754047768411, 67054789175222850],
  [67372774608450887, 67381855849398388, 67386396775868829, 67388667341108100, 67389802657730376, 67390370327376027, 67390654165977128, 67390796086537136, 67390867047236936, 67390902527726779],
  [67710390559691102, 67719563059332713, 67724149619774446, 67726443003540869, 67727589729940578, 67728163104646271, 67728449795834475, 67728593142707028, 67728664816569498, 67728700653642770],
  [68049697898612136, 68058962573972520, 68063595226967760, 68065911658575731, 68067069909417865, 68067649046518635, 68067938618962350, 68068083406481997, 68068155800674431, 68068191997914854],
  [68390705094092895, 68400062871410845, 68404742080149911, 68407081791218273, 68408251682320085, 68408836639727237, 68409129122382954, 68409275365028212, 68409348486790005, 68409385047817268],
  [68733420657369852, 68742872472190862, 68747598704518495, 68749961928993628, 68751143577336346, 68751734413543088, 68752029835658366, 68752177548053308, 68752251404696589, 68752288333166799],
  [69077853142248527, 69087399939518295, 69092173667980464, 69094560642159677, 69095754165900074, 69096350939987577, 69096649331103823, 69096798528019482, 69096873126929837, 69096910426535841],
  [69424011145315849, 69433653879474706, 69438475581365787, 69440886543920997, 69442092062403304, 69442694834046369, 69442996224001964, 69443146920357816, 69443222268995112, 69443259943466863],
  [69771903306153774, 69781642941232102, 69786513098642566, 69788948290644174, 69790165924411913, 69790774753885132, 69791079172818282, 69791231383683721, 69791307489582756, 69791345542687680],
  [70121538307553713, 70131375817268225, 70136294917132931, 70138754582073812, 70139984452881939, 70140599401065609, 70140906879417417, 70141060620013327, 70141137490784631, 70141175926328062],
  [70472924875732111, 70482861243583293, 70487829777730079, 70490314161550030, 70491556392377063, 70492177520763350, 70492488089280813, 70492643374981019, 70492721018311627, 70492759840137101],
  [70826071780547383, 70836107999917627, 70841126465116477, 70843635816226762, 70844890531287128, 70845517901986084, 70845831591725267, 70845988438058104, 70846066861712299, 70846106073701965],
  [71180987835717366, 71191124909970364, 71196193807983104, 71198728377291307, 71199995702047635, 71200629377793598, 71200946220122637, 71201104642772513, 71201183854592600, 71201223460667665],
  [71537681899038364, 71547920841619371, 71553040679249802, 71555600720184901, 71556880781360705, 71557520825518434, 71557840852120685, 71558000866929624, 71558080874836730, 71558120878957798],
  [71896162872605069, 71906504707142140, 71911675996286708, 71914261764824392, 71915554690416691, 71916201166987752, 71916524409865014, 71916686032834267, 71916766844829085, 71916807250996565],
  [72256439703031507, 72266885463437817, 72272108721136805, 72274720475825084, 72276026395117182, 72276679368746315, 72277005860222016, 72277169107513596, 72277250731677309, 72277291543931804],
  [72618521381673202, 72629072112250415, 72634347860739559, 72636985862724614, 72638304906299053, 72638964442280654, 72639294215003035, 72639459102941448, 72639541547436391, 72639582769859137],
  [72982416944850445, 72993073700393049, 72998402467155788, 73001066980208097, 73002399279959671, 73003065444244363, 73003398531189798, 73003565076263551, 73003648349334133, 73003689986047321],
  [73348135474072542, 73358899319973239, 73364281637793474, 73366972928334132, 73368318617483098, 73368991476684275, 73369327911160527, 73369496130023913, 73369580239997334, 73369622295164653],
  [73715686096263375, 73726558108619614, 73731994515634886, 73734712852762275, 73736072065867732, 73736751687268189, 73737091502917753, 73737261412392373, 73737346367679617, 73737388845506564],
  [74085077983987858, 74096059249709336, 74101550289464645, 74104295944981351, 74105668817954601, 74106355269513337, 74106698500316857, 74106870117393364, 74106955926489873, 74106998831224217],
  [74456320355679694, 74467411972596991, 74472958194099194, 74475731442539140, 74477118112657321, 74477811463016314, 74478158143295877, 74478331485135728, 74478418156622325, 74478461492554540]]

/-- Rows from 100 on. -/
def skRows1 : List (List Nat) := [
  [74829422475870176, 74840625552844505, 74846227510617084, 74849028629273012, 74850429235192830, 74851129553683840, 74851479718106498, 74851654802043579, 74851742344587364, 74851786116051031],
  [75204393655418206, 75215709312452162, 75221367566590748, 75224196835541922, 75225611517313470, 75226318873965062, 75226672557546264, 75226849401088678, 75226937823443850, 75226982034816084],
  [75581243251741321, 75592672620090841, 75598387736319170, 75601245438459362, 75602674337540166, 75603388803084659, 75603746041191729, 75603924662023572, 75604013973032248, 75604058628734195],
  [75959980669047943, 75971524891335374, 75977297441061820, 75980183862127618, 75981627121396794, 75982348767277325, 75982709595633031, 75982890011616088, 75982980220209328, 75983025324706546],
  [76340615358570852, 76352275588899171, 76358106149273876, 76361021577873246, 76362479341645720, 76363208240023424, 76363572694709554, 76363754923885097, 76363846039083681, 76363891596886586],
  [76723156818801695, 76734934222869746, 76740823376842307, 76743768104483426, 76745240518524434, 76745976742285642, 76746344859746594, 76746528920337257, 76746620951252616, 76746666966916998],
  [77107614595726707, 77119510350945808, 77125458687323534, 77128433008443985, 77129920219983601, 77130663842747091, 77131035659793549, 77131221570205018, 77131314526040213, 77131361004167617],
  [77493998283063579, 77506013578675171, 77512021692181972, 77515025904178073, 77516528061925941, 77517279158050391, 77517654711862927, 77517842490685990, 77517936380736482, 77517983325974706],
  [77882317522499691, 77894453559694058, 77900522051029870, 77903556454286542, 77905073708446770, 77905832353038077, 77906211681170946, 77906401347183158, 77906496180837854, 77906543597881412],
  [78272582003931118, 78284839995967584, 78290969471868423, 78294034369789126, 78295566872075222, 78296333140994131, 78296716281379001, 78296907853546622, 78297003640288835, 78297051533879417],
  [78664801465703230, 78677182638031346, 78683373711329940, 78686469410366993, 78688017314017180, 78688791283886751, 78689178274836508, 78689371772316415, 78689468521724731, 78689516896651680],
  [79058985694852306, 79071491285234312, 79077744574921374, 79080871384606692, 79082434844399068, 79083216592612431, 79083607472824988, 79083802914966584, 79083900636715856, 79083949497816650],
  [79455144527348305, 79467775785982848, 79474091917268913, 79477250150244863, 79478829322512966, 79479618927241018, 79480013735803190, 79480211142150372, 79480309846012676, 79480359198173407],
  [79853287848338951, 79866046037985989, 79872425642363990, 79875615614414660, 79877210657063090, 79878008197262310, 79878406973653735, 79878606363946775, 79878706059792403, 79878755907948265],
  [80253425592395031, 80266311988502030, 80272755703810313, 80275977733893102, 80277588806413298, 80278394361833655, 80278797145930746, 80278998540108298, 80279099237906760, 80279149587042563],
  [80655567743756718, 80668583634586129, 80675092105072290, 80678346515349782, 80679973778835986, 80680787430028889, 80681194262108795, 80681397680309929, 80681499390130901, 80681550245281531],
  [81059724336581381, 81072871023339391, 81079444899724619, 81082732015596814, 81084375632762130, 81085197461088523, 81085608381833139, 81085813844399303, 81085916576413672, 81085967942664619],
  [81465905455192412, 81479184252158924, 81485824191703123, 81489144341839891, 81490804477032591, 81491634564671069, 81492049615171182, 81492257142648251, 81492360907129132, 81492412789617021],
  [81874121234329456, 81887533468989493, 81894240135556878, 81897593651930937, 81899270471150898, 81900108901105891, 81900528122865235, 81900737736005571, 81900842543329306, 81900894947242357],
  [82284381859399760, 82297928872576080, 82304702936701580, 82308090154621573, 82309783825536853, 82310630681646993, 82311054116586380, 82311265836350917, 82311371696998123, 82311424627576717],
  [82696697566730747, 82710380712717874, 82717222851674168, 82720644109818265, 82722354801781893, 82723210168728301, 82723637859189893, 82723851706750171, 82723958631306837, 82724012093844009],
  [83111078643824089, 83124899290523598, 83131810188388791, 83135265828838498, 83136993712905349, 83137857676220193, 83138289664971618, 83138505661712036, 83138613660870480, 83138667660712472],
  [83527535429610644, 83541494958667875, 83548475306393887, 83551965674668214, 83553710923612193, 83554583569687236, 83555019899925941, 83555238067445744, 83555347152005813, 83555401694552562],
  [83946078314706986, 83960178121649133, 83967228617130765, 83970754062220879, 83972516850552132, 83973398266647272, 83973838982004872, 83974059342120376, 83974169522990405, 83974224613696179],
  [84366717741673073, 84380959236048640, 84388080584193309, 84391641458597298, 84393421962579681, 84394312236831800, 84394757381378349, 84394979956125177, 84395091244323126, 84395146888696946],
  [84789464205271164, 84803848810790800, 84811041723589032, 84814638383347234, 84816436781015919, 84817336002447610, 84817785620696100, 84818010432331282, 84818122838985864, 84818179042592154],
  [85214328252726203, 85228857407404967, 85236122604001531, 85239755408732069, 85241571879911379, 85242480138439879, 85242934275350641, 85243161346354880, 85243274882706641, 85243331651165742],
  [85641320483987183, 85655995640288252, 85663333847054029, 85667003159988809, 85668837886310214, 85669755272756401, 85670213973741528, 85670443326821513, 85670558004223988, 85670615343212716],
  [86070451551990062, 86085274176969919, 86092686127574571, 86096392315595561, 86098245480515704, 86099172086613179, 86099635397541253, 86099867055631818, 86099982885552600, 86100040800804838],
  [86501732162921929, 86516703738376868, 86524190173862105, 86527933607538006, 86529805396357202, 86530741314761435, 86531209281961975, 86531443268228454, 86531560262250441, 86531618759557672],
  [86935173076486364, 86950295099100672, 86957856767954340, 86961637821577668, 86963528421458378, 86964473745755979, 86964946416024099, 86965182753864632, 86965300923687083, 86965360008899053],
  [87370785106170273, 87386059087665743, 87393696745896636, 87397515797521085, 87399425397506603, 87400380222224714, 87400857642825773, 87401096355873705, 87401215713313489, 87401275392338652],
  [87808579119511999, 87824006586798914, 87831720998012385, 87835578429490681, 87837507220524065, 87838471641139753, 87838953859814182, 87839194971940296, 87839315528933016, 87839375807739254],
  [88248566038370634, 88264148533700483, 88271940469174674, 88275836666196723, 88277784841139827, 88278758954089717, 88279246019057651, 88279489554372707, 88279611322973918, 88279672207589111],
  [88690756839196802, 88706495920316342, 88714366159079339, 88718301511210747, 88720269264863625, 88721253167553415, 88721745127519683, 88721991110376664, 88722114102763108, 88722175599275662],
  [89135162553304807, 89151059793611659, 89159009122519368, 89162984023240452, 89164971552360673, 89165965343175016, 89166462247333855, 89166710702330530, 89166834930801315, 89166897045360864],
  [89581794267146054, 89597851255845994, 89605880469660729, 89609895316405814, 89611902819728299, 89612906598040531, 89613408496080533, 89613659448061910, 89613784925039744, 89613847663857710],
  [90030663122583744, 90046881464849487, 90054991366319469, 90059046560516618, 90061074238773363, 90062088104955466, 90062595047064702, 90062848521125439, 90062975259157861, 90063038628508088],
  [90481780317169133, 90498161634300779, 90506353034240327, 90510448981351459, 90512497037291672, 90513521092724382, 90514033129595199, 90514289151082155, 90514417162842838, 90514481169062257],
  [90935157104419029, 90951703034005961, 90959976751376565, 90964113860938044, 90966182499348447, 90967216846431272, 90967734029265482, 90967992623780275, 90968121922070246, 90968186571559418],
  [91390804794094720, 91407516990179332, 91415873852171496, 91420052537834979, 91422141965560232, 91423186707721775, 91423709088235796, 91423970281637285, 91424100879386222, 91424166178610082],
  [91848734752482142, 91865614885725116, 91874055727840984, 91878276407414877, 91880386833378258, 91881442075086536, 91881969705516484, 91882233523923478, 91882365434190990, 91882431389679416],
  [92308958402673654, 92326008160520813, 92334533826657792, 92338796922148940, 92340928557373272, 92341994404146146, 92342527337253106, 92342793807046847, 92342927043023812, 92342993661372332],
  [92771487224851105, 92788708311702117, 92797319654237107, 92801625591893008, 92803778649521704, 92804855207937454, 92805393497012782, 92805662644839651, 92805797219849506, 92805864507719917],
  [93236332756570182, 93253726893948851, 93262424773823526, 93266773984174912, 93268948679493349, 93270036057201326, 93270579756071865, 93270851608846057, 93270987536346148, 93271055500467200],
  [93703506593046423, 93721075519772679, 93729860806579483, 93734253724483434, 93736450274940406, 93737548580671761, 93738097743705358, 93738372328611548, 93738509622194464, 93738578269362532],
  [94173020387442475, 94190765859806079, 94199639431875176, 94204076496558512, 94206295121788023, 94207404465366623, 94207959147477507, 94208236491973563, 94208375165368501, 94208444502448253],
  [94644885851156640, 94662809643092854, 94671772387579827, 94676254042683075, 94678494964526265, 94679615456879653, 94680175713533928, 94680455845353673, 94680595912427769, 94680665946352894],
  [95119114754113298, 95137218657379930, 95146271470354632, 95150798163976273, 95153061606503660, 95154193359674142, 95154759246895298, 95155042194051265, 95155183668811083, 95155254406584916],
  [95595718925054276, 95614004749410822, 95623148535946728, 95627720720688151, 95630006910221911, 95631150037377792, 95631721611752374, 95632007402538633, 95632150299131426, 95632221747827737],
  [96074710251831919, 96093179825220378, 96102415499485196, 96107033632495829, 96109342797632522, 96110497413079353, 96111074731762569, 96111363394757552, 96111507727472833, 96111579894236419],
  [96556100681703590, 96574755850431128, 96584084335778103, 96588748878801084, 96591081250434519, 96592247469626564, 96592830590348059, 96593122154417361, 96593267937688219, 96593340829735747],
  [97039902221627598, 97058744850550980, 97068167079611173, 97072878499029647, 97075234310373866, 97076412249925715, 97077001230995211, 97077295725294600, 97077442973699164, 97077516598319778],
  [97526126938560562, 97545158911272557, 97554675826048060, 97559434592931662, 97561814079544400, 97563003857242489, 97563598757555799, 97563896211533955, 97564044939796896, 97564119304352994],
  [98014786959756326, 98034010178773816, 98043622730731981, 98048429320883986, 98050832720690062, 98052034455504560, 98052635334549323, 98052935777950966, 98053086000944909, 98053161112872939],
  [98505894473066205, 98525310860020406, 98535020010188809, 98539874904193689, 98542302457508901, 98543516269605593, 98544123187467318, 98544426650336070, 98544578383083097, 98544654249894180],
  [98999461727240974, 99019073223069354, 99028879942131924, 99033783625403403, 99036235574958553, 99037461585710755, 99038074603078797, 99038381115760203, 99038534373433411, 99038611002714172],
  [99495501032234034, 99515309597374266, 99525214865768346, 99530167828597893, 99532644419562981, 99533882751563833, 99534501929737397, 99534811522882001, 99534966320806927, 99535043720220276],
  [99994024759506354, 100014032374092200, 100024037182106410, 100029039919712300, 100031541399721090, 100032792176795690, 100033417577690090, 100033730282256430, 100033886635912670, 100033964813198490],
  [100495045342332790, 100515254006391940, 100525359354265250, 100530412366842000, 100532938986016810, 100534202333234600, 100534834019387380, 100535149866645150, 100535307791667840, 100535386754643830],
  [100998575276109830, 101018987009763810, 101029193907785470, 101034297700553870, 101036849711530480, 101038125755217890, 101038763789795010, 101039082811328140, 101039242323509610, 101039322080071980],
  [101504627118665170, 101525243962331010, 101535553430941530, 101540708514199250, 101543286172152220, 101544575039905070, 101545219486707380, 101545541714417250, 101545702829708460, 101545783387832840],
  [102013213490568350, 102034037505162680, 102044450575055860, 102049657464228210, 102052261026896430, 102053562847592910, 102054213771062370, 102054539237170930, 102054701971683200, 102054783339425330],
  [102524347075443480, 102545380342588290, 102555898054814120, 102561157270505830, 102563786998218210, 102565101902031620, 102565759367257840, 102566088104310900, 102566252474317420, 102566334659814060],
  [103038040620283010, 103059285242513680, 103069908648582520, 103075220716629640, 103077876872331160, 103079204990743020, 103079869063469730, 103080201104340150, 103080367126277720, 103080450137747300],
  [103554306935763450, 103575765036738790, 103586495198726370, 103591860650248870, 103594543499526920, 103595884965340000, 103596555711971680, 103596891089862670, 103597058780333240, 103597142626076890],
  [104073158896562230, 104094832621276770, 104105670611930330, 104111089983385220, 104113799794496080, 104115154741847810, 104115832229456210, 104116170977904730, 104116340353677100, 104116425042079340],
  [104594609441676660, 104616500956674840, 104627447859520450, 104632921692755370, 104635658736651030, 104637027301026820, 104637711597357800, 104638053750237790, 104638224828249330, 104638310367778920],
  [105118671574744010, 105140783068336700, 105151839977787400, 105157368820094780, 105160133370450130, 105161515688696920, 105162206862177190, 105162552453703040, 105162725251061240, 105162811650272110],
  [105645358364363290, 105667692046846410, 105678860068311750, 105684444472483520, 105687236805723580, 105688633016063610, 105689331135807450, 105689680200537440, 105689854734521800, 105689942002053790],
  [106174682944418830, 106197241048294230, 106208521298290610, 106214161822673490, 106216982218001120, 106218392460045650, 106219097595862000, 106219450168701650, 106219626456765320, 106219714601345120],
  [106706658514405200, 106729443294603650, 106740836900865930, 106746534109417230, 106749382848841050, 106750807263604370, 106751519486003690, 106751875602209340, 106752053661980880, 106752142692422880],
  [107241298339753820, 107264312073860360, 107275820175454700, 107281574637798630, 107284452006161150, 107285890736074660, 107286610116276030, 107286969811458360, 107287149660743450, 107287239585950620],
  [107778615752161280, 107801860740642750, 107813484488080220, 107819296779564970, 107822203064571120, 107823656253497590, 107824382863435800, 107824746173563360, 107824927830346670, 107825018659311490],
  [108318624149919110, 108342102716354020, 108353843271705760, 108359713973460860, 108362649465706760, 108364117258954670, 108364851171287470, 108365218132690280, 108365401615137210, 108365493356942490],
  [108861336998245390, 108885051489556010, 108896910026569330, 108902839725563830, 108905804718565830, 108907287262903930, 108908028551019220, 108908399200392450, 108908584526850930, 108908677190670800],
  [109406767829617830, 109430720616304640, 109442698320520310, 109448687609621420, 109451682399845400, 109453179843517440, 109453928581540690, 109454302955948200, 109454490144950610, 109454583740051390],
  [109954930244108440, 109979123720487100, 109991221789357820, 109997271267390220, 110000296154281260, 110001808647020690, 110002564909822270, 110002943046700490, 110003132116965450, 110003226652706560],
  [110505837909720120, 110530274494160620, 110542494137170690, 110548604408976330, 110551659694988690, 110553187388033720, 110553951251236430, 110554333188398000, 110554524158832210, 110554619644667150],
  [111059504562724780, 111084186697892980, 111096529136679210, 111102700813177770, 111105786803805070, 111107329849913750, 111108101389900380, 111108487165537940, 111108680055238160, 111108776500715430],
  [111615944008002890, 111640874161104660, 111653340629578400, 111659574327828430, 111662691331634190, 111664249885099760, 111665029179020710, 111665418831710740, 111665613659965630, 111665711074729710],
  [112175170119385170, 112200350782412860, 112212942526883390, 112219238870143870, 112222387198792420, 112223961415458610, 112224748541239630, 112225142109946280, 112225338896238350, 112225437290030630],
  [112737196839995540, 112762630529976880, 112775348809275930, 112781708427068690, 112784888395356270, 112786478432632980, 112787273468982940, 112787670993061940, 112787869757069500, 112787969139729300],
  [113302038182596100, 113327727441845730, 113340573527453250, 113346997055625870, 113350208981512090, 113351814998391090, 113352618024809860, 113353019544012500, 113353220305611610, 113353320687077100],
  [113869708229933520, 113895655626307010, 113908630802478290, 113915118883267550, 113918363087907240, 113919985244978080, 113920796341764470, 113921201896241510, 113921404675508000, 113921506065817260],
  [114440221135087400, 114466429262237680, 114479534826131700, 114486088108227920, 114489364916003200, 114491003375469230, 114491822623729040, 114492232254034720, 114492437071246190, 114492539480538140],
  [115013591121820120, 115040062599456740, 115053299861265710, 115059918999877550, 115063228738430220, 115064883664124870, 115065711145778980, 115066124892875150, 115066331768512970, 115066435207028470],
  [115589832484928640, 115616569959079390, 115629940242159790, 115636625899079710, 115639968899344070, 115641640456747180, 115642476254539730, 115642894159799860, 115643103114551270, 115643207592634070],
  [116168959590597900, 116195965733873150, 116209470374877980, 116216223218548370, 116219599814784300, 116221288171038690, 116222132368545390, 116222554473758790, 116222765528518860, 116222871056616690],
  [116750986876755900, 116778264388615700, 116791904737627960, 116798725443208030, 116802135973034360, 116803841296962510, 116804693978598990, 116805120325974900, 116805333501848770, 116805440090514350],
  [117335928853430740, 117363480460454420, 117377257881122090, 117384147130555350, 117387591934983660, 117389314397104660, 117390175648134860, 117390606280306710, 117390821598611600, 117390929258503700],
  [117923800103109270, 117951628559267810, 117965544428940230, 117972502911022570, 117975982334491220, 117977722107037740, 117978592013582490, 117979026973612200, 117979244455879560, 117979353197764090],
  [118514615281097510, 118542723368028800, 118556779077894120, 118563807488342730, 118567321878751370, 118569079135686900, 118569957784732500, 118570397116114770, 118570616784092440, 118570726618843470],
  [119108389115883010, 119136779643169560, 119150976598393920, 119158075639916830, 119161625348661150, 119163400265697420, 119164287745104350, 119164731491770960, 119164953367425360, 119165064306026270],
  [119705136409498670, 119733812214948430, 119748151834816280, 119755322217182600, 119758907599189420, 119760700353803940, 119761596752315700, 119762044958639940, 119762269064158240, 119762381117702800],
  [120304872037888760, 120333835987818550, 120348319705874600, 120355562145985410, 120359183559748240, 120360994331202060, 120361899738453920, 120362352449255040, 120362578807047370, 120362691986740810],
  [120907610951276450, 120936865940798350, 120951495204990680, 120958810426950800, 120962468234565570, 120964297203921180, 120965211710449250, 120965668970996930, 120965897603698680, 120966011920858870],
  [121513368174533290, 121542917127843800, 121557693400668690, 121565082135858910, 121568776703060310, 121570624053199810, 121571547750450040, 121572009606468840, 121572240536942880, 121572356003001450],
  [122122158807550420, 122152004678222620, 122166929436870640, 122174392424021030, 122178124120218900, 122179990035862220, 122180923016199550, 122181389513873640, 122181622765212570, 122181739391715970],
  [122733998025611760, 122764143796890340, 122779218533394020, 122786756518657450, 122790525716973920, 122792410384697270, 122793352741414880, 122793823927392570, 122794059522921090, 122794177321531910]]

/-- Rows from 200 on. -/
def skRows2 : List (List Nat) := [
  [123348901079768780, 123379349764868180, 123394575986251000, 123402189723278100, 123405996800584690, 123407900408839280, 123408852236167960, 123409328157566300, 123409566120843510, 123409685103341460],
  [123966883297217580, 123997637939622770, 124013017168049930, 124020707418064090, 124024552755019550, 124026475494150410, 124027436887267810, 124027917591677390, 124028157946499210, 124028278124782470],
  [124587960081677220, 124619023755447960, 124634557528378270, 124642325060252050, 124646209041340240, 124648151103605200, 124649122158645560, 124649607694135310, 124649850464536740, 124649971850622990],
  [125212146913770350, 125243522723848210, 125259212594187870, 125267058184519540, 125270981198088060, 125272942777677060, 125273923591740760, 125274414006862570, 125274659217120220, 125274781823147950],
  [125839459351405780, 125871150433924110, 125886997970182070, 125894922403373390, 125898884841672260, 125900866134726650, 125901856805889840, 125902352149683630, 125902599824318040, 125902723662547720],
  [126469913030162360, 126501922552759990, 126517929339204230, 126525933407538980, 126529935666759850, 126531936871392110, 126532937498716570, 126533437820715140, 126533687984493230, 126533813067308590],
  [127103523663675650, 127135854825812870, 127152022462629170, 127160106966351950, 127164149446667880, 127166170762981430, 127167181446524420, 127167686796758270, 127167939474696030, 127168065814605190],
  [127740307044025430, 127772963077303950, 127789293180755580, 127797458928152230, 127801542033757460, 127803583663866570, 127804604504691010, 127805114933693410, 127805370151058120, 127805497760694930],
  [128380279042126230, 128413263210611800, 128429757413201030, 128438005220679120, 128442129359829690, 128444191507879720, 128445222608064070, 128445738166876260, 128445995949189120, 128446124841314470],
  [129023455608118970, 129056771208667490, 129073431159298720, 129081761851469380, 129085927436523770, 129088010308711640, 129089051771360240, 129089572511536340, 129089832884575040, 129089963072077960],
  [129669852771764720, 129703503134351510, 129720330498496160, 129728744908256380, 129732952355716800, 129735056160311550, 129736108089564870, 129736634063177130, 129736897052978510, 129737028548877640],
  [130319486642840630, 130353475130893250, 130370471590756040, 130378970559371810, 130383220289925920, 130385345237289500, 130386407738334630, 130386938997978620, 130387204630841120, 130387337448285900],
  [130972373411537670, 131006703422271680, 131023870676958830, 131032455054149500, 131036747492712270, 131038893795320780, 131039966974401870, 131040503573201600, 131040771875688010, 131040906027960030],
  [131628529348860220, 131663204313618670, 131680544079307690, 131689214723330630, 131693550299087060, 131695718171551640, 131696802135980540, 131697344127594130, 131697615126534060, 131697750627048430],
  [132287970807027790, 132322994191624000, 132340508201735110, 132349265979471690, 132353645125919490, 132355834785008040, 132356929643175050, 132357477081799760, 132357750804292560, 132357887666599180],
  [132950714219878880, 132986089524942450, 133003779530311800, 133012625317353870, 133017048472346960, 133019260137005780, 133020365998390470, 133020918938768200, 133021195412185630, 133021333649970540],
  [133616776103276050, 133652506864602730, 133670374633657390, 133679309314395030, 133683776920187230, 133686010811562790, 133687127786744950, 133687686284167800, 133687965536156600, 133688105163243430],
  [134286173055514130, 134322262844418840, 134340310163353650, 134349334631063280, 134353847134352550, 134356103475813750, 134357231676484490, 134357795786800210, 134358077845284940, 134358218875636260],
  [134958921757729540, 134995374181403370, 135013602854359090, 135022718011292970, 135027275863265980, 135029554880426410, 135030694419399250, 135031264199016830, 135031549092202780, 135031691539921470],
  [135635038974312110, 135671857676182320, 135690269525426230, 135699476282902500, 135704079939279970, 135706381860020420, 135707532851242560, 135708108357137940, 135708396113513800, 135708539992844480],
  [136314541553318640, 136351730213412760, 136370327079520530, 136379626358014420, 136384276279096360, 136386601333587750, 136387763892151570, 136388345181873220, 136388635830214010, 136388781155544420],
  [136997446426888540, 137035008762201960, 137053792504241800, 137063185233477580, 137067881884189500, 137070230304915640, 137071404547070190, 137071991678744960, 137072285248114910, 137072432033977410],
  [137683770611661960, 137721710376529160, 137740682872247270, 137750169991291130, 137754913841230580, 137757285863011690, 137758471906174140, 137759064938513000, 137759361458268450, 137759509719341460],
  [138373531209199140, 138411852195668670, 138431015341677180, 138440597799031180, 138445389322514390, 138447785182530470, 138448983145298080, 138449582137602160, 138449881637394320, 138450031388503810],
  [139066745406402670, 139105451444616030, 139124807156582370, 139134485910279120, 139139325586388780, 139141745524203200, 139142955526365120, 139143560538531270, 139143863048309600, 139144014304430450],
  [139763430475941350, 139802525434515360, 139822075647353670, 139831851665052190, 139836739977685120, 139839184235268780, 139840406397817840, 139841017490345170, 139841323040359850, 139841475816617530],
  [140463603776676100, 140503091563089490, 140522838231154020, 140532712490236370, 140537649928152000, 140540118749907350, 140541353195052440, 140541970429047820, 140542279049853170, 140542433361525140],
  [141167282754088300, 141207167315071970, 141227112412352280, 141237085900021420, 141242072956890480, 141244566589676110, 141245813440854170, 141246436878038640, 141246748600496110, 141246904463013310],
  [141874484940709910, 141914770262641120, 141934915782959420, 141944989496337620, 141950026670791780, 141952545363946890, 141953804745835350, 141954434448550290, 141954749303831460, 141954906732779910],
  [142585227956556060, 142625918065856450, 142646266023066740, 142656440969295490, 142661528764976930, 142664072770346450, 142665344808875780, 142665980840089040, 142666298859678660, 142666457870801120],
  [143299529509559190, 143340628473097230, 143361180901286620, 143371458097627070, 143376597023238970, 143379166595198720, 143380451417564870, 143381093840877090, 143381415056576360, 143381575665773750],
  [144017407396006010, 144058919321503030, 144079678275194910, 144090058749129730, 144095249318487060, 144097844713969030, 144099142448646210, 144099791328297230, 144100115772227020, 144100277995560040],
  [144738879500976330, 144780808537416740, 144801776091776090, 144812260881112040, 144817503613192970, 144820125091711230, 144821435868464720, 144822091269339980, 144822418973943930, 144822582827634670],
  [145463963798783590, 145506314136829480, 145527492387870170, 145538082540841930, 145543377959839630, 145546025783516120, 145547349733415320, 145548011721052330, 145548342719100100, 145548508219533770],
  [146192678353418450, 146235454225827860, 146256845290622210, 146267541865997010, 146272890501372270, 146275564934962950, 146276902190394450, 146277570830989410, 146277905155579990, 146278072319306400],
  [146925041318993750, 146968247001043760, 146989853017934000, 147000657085117590, 147006059471651350, 147008760782572880, 147010111477253690, 147010786837667900, 147011124522233030, 147011293365968320],
  [147661070940192270, 147704710750105680, 147726533878917570, 147737446518061000, 147742903195908250, 147745631654264550, 147746995923255440, 147747678071022260, 147748019149329590, 147748189689957920],
  [148400785552716170, 148444863852093010, 148466906274351720, 148477928576459290, 148483440091202830, 148486195969812160, 148487573949531230, 148488262952862670, 148488607459019180, 148488779713594400],
  [149144203583738930, 149188724777992150, 149210988697140100, 149222121764178480, 149227688666883460, 149230472241305640, 149231864069541900, 149232559997335540, 149232907965791000, 149233081951538330],
  [149891343552359770, 149936312091154850, 149958799732772140, 149970044677780470, 149975667525049480, 149978479073613510, 149979884889540690, 149980587811386480, 149980939276936850, 149981115011254630],
  [150642224070059480, 150687644447759280, 150710358059785810, 150721716006986920, 150727395361015680, 150730235164847490, 150731655109037930, 150732365095225150, 150732720093016210, 150732897593477620],
  [151396863841159450, 151442740597272860, 151465682450232950, 151477154535145760, 151482890963779300, 151485759306830010, 151487193521268730, 151487910642793060, 151488269208323680, 151488448492678510],
  [152155281663282310, 152201619382917600, 152224791770147070, 152236379139699980, 152242173216489430, 152245070385563500, 152246519013662460, 152247243342233100, 152247605511358900, 152247786597535390],
  [152917496427815140, 152964299742137990, 152987704980013050, 152999408792658760, 153005261096918580, 153008187381702710, 153009650568315000, 153010382176361740, 153010747985298750, 153010930891405220],
  [153683527120374800, 153730800707070780, 153754441135239590, 153766262561070650, 153772173677936690, 153775129371028600, 153776607262463020, 153777346223143620, 153777715708471860, 153777900452798680],
  [154453392821275540, 154501141405017260, 154525019386633680, 154536959607499680, 154542930127987540, 154545915524925340, 154547408268961140, 154548154656168500, 154548527854835540, 154548714455856820],
  [155227112705999100, 155275341058918190, 155299458980877900, 155311519190503320, 155317549711567530, 155320565110859230, 155322072856760580, 155322826745130310, 155323203694455010, 155323392170830680],
  [156004706045666980, 156053418987830420, 156077779261009470, 156089960665113150, 156096051789706790, 156099097492860180, 156100620391391360, 156101381856309040, 156101762593985400, 156101952964562750],
  [156786192207514920, 156835394607406670, 156859999666902180, 156872303483317830, 156878455820452810, 156881532132005470, 156883070335445900, 156883839453054750, 156884224017155530, 156884416300971410],
  [157571590655369920, 157621287430377070, 157646139735750700, 157658567194548570, 157664781359356460, 157667888586906400, 157669442249065800, 157670219096274220, 157670607525254820, 157670801741537310],
  [158360920950129550, 158411117067033350, 158436219102556870, 158448771446166740, 158455048059960360, 158458186514196690, 158459755790430410, 158460540444919740, 158460932777622070, 158461128945792510],
  [159154202750243430, 159204903225715440, 159230257500619170, 159242935983954330, 159249275674289850, 159252445669023660, 159254030716248400, 159254823256480700, 159255219532136950, 159255417671811870],
  [159951455812197480, 160002665713300340, 160028274762023650, 160041080652606560, 160047484053346090, 160050685905542180, 160052286882251510, 160053087387477280, 160053487645713990, 160053687776707040],
  [160752699990999930, 160804424435693580, 160830290818138220, 160843225396227110, 160849693147602240, 160852927177410460, 160854544243690790, 160855352793956980, 160855757074798910, 160855959217122860],
  [161557955240670340, 161610199398323150, 161636325700109020, 161649390258825730, 161655923007501350, 161659189538288930, 161660822855835330, 161661639531993340, 161662047875867520, 161662252049736330],
  [162367241614730730, 162420010706635620, 162446399539358940, 162459595384818350, 162466193783957470, 162469493142341060, 162471142874473610, 162471967758187470, 162472380205927080, 162472586431757850],
  [163180579266699080, 163233878566594950, 163260532568089350, 163273861019529730, 163280525728858690, 163283858244737180, 163285524556417230, 163286357730171500, 163286774323020290, 163286982621435240],
  [163997988450585310, 164051823285183810, 164078745119783890, 164092207509698780, 164098939195573120, 164102305202160620, 164103988260007270, 164104829807115610, 164105250586731620, 164105460978560310],
  [164819489521389650, 164873865270906990, 164901057629714380, 164914655303985880, 164921454639457110, 164924854473316100, 164926554445622960, 164927404450236200, 164927829458696320, 164928041964977560],
  [165645102935603630, 165700025034297950, 165727490635450300, 165741224953483450, 165748092618366200, 165751526619441420, 165753243676193220, 165754102223308000, 165754531503111790, 165754746145095900],
  [166474849251713370, 166530323188427400, 166558064777369770, 166571937112228520, 166578873793168510, 166582342304820740, 166584076617710630, 166584943793177540, 166585377387251890, 166585594186402710],
  [167308749130705300, 167364780449414440, 167392800799173870, 167406812537718140, 167413818928260860, 167417322297301400, 167419074039747780, 167419949930280440, 167420387881983440, 167420606859980550],
  [168146823336574470, 168203417636940450, 168231719548402650, 168245872091427120, 168252948892087220, 168256487468812400, 168258256815976460, 168259141509159810, 168259583862285450, 168259805041026300],
  [168989092736835310, 169046255674765300, 169074841976954860, 169089136739328770, 169096284657659870, 169099858795886270, 169101645924689580, 169102539508988750, 169102986307771050, 169103209709373110],
  [169835578303034870, 169893315591246480, 169922189141609140, 169936627552417860, 169943847303083500, 169947457360183110, 169949262449325100, 169950165014094310, 169950616303211820, 169950841950014980],
  [170686301111268730, 170744618519860180, 170773782204548600, 170788365707236420, 170795658012081300, 170799304349017410, 170801127578993340, 170802039214484750, 170802495039065140, 170802722953633650],
  [171541282342699100, 171600185699725560, 171629642433887550, 171644372486401730, 171651738074524150, 171655421055887340, 171657262609006350, 171658183406379160, 171658643812003530, 171658874017128460],
  [172400543284075810, 172460038476131420, 172489791204201100, 172504669279137890, 172512108886962260, 172515828881006970, 172517688941410280, 172518618992739770, 172519084025447370, 172519316544148850],
  [173264105328259660, 173324198301065330, 173354249997057360, 173369277581808950, 173376791953159700, 173380549331840860, 173382428085520210, 173383367483807050, 173383837190099730, 173384072045629210],
  [174131989974748580, 174192686733745540, 174223040401552290, 174238218998455470, 174245808884631240, 174249604023641610, 174251501658457850, 174252450497637280, 174252924924484290, 174253162140326940],
  [175004218830205780, 175065525441155390, 175096184114846980, 175111515241333360, 175119181401182190, 175123014679989870, 175124931385691770, 175125889760643000, 175126368955485630, 175126608555362630],
  [175880813608991270, 175942736198580730, 175973702942708060, 175989188131455740, 175996931331450860, 176000803133337150, 176002739101580310, 176003707108136140, 176004191118892360, 176004433126763350],
  [176761796133695340, 176824340890149400, 176855618800050520, 176871259599137080, 176879080613453560, 176882991325551440, 176884946749917400, 176885924484873720, 176886413359943210, 176886657800008490],
  [177647188335675090, 177710361509374040, 177741953711483190, 177757751684540550, 177765651295132550, 177769601308465300, 177771576384481120, 177772563945606500, 177773057733875260, 177773304630578410],
  [178537012255593390, 178600820159696920, 178632729811856940, 178648686538227610, 178656665534906850, 178660655244427050, 178662650169584600, 178663647655630210, 178664146406475550, 178664395784505790],
  [179431290043960250, 179495739055038140, 179527969346815970, 179544086421710870, 179552145602225270, 179556175406854370, 179558190380630250, 179559197891339660, 179559701654635140, 179559953538929820],
  [180330043961677510, 180395140520346170, 180427694673351350, 180443973708009130, 180452113878122720, 180456184180790960, 180458219404666380, 180459237040785550, 180459745866905890, 180460000282653040],
  [181233296380585290, 181299046992151030, 181331928260357650, 181348370882205870, 181356592855779200, 181360704063465850, 181362759740946740, 181363787604234090, 181364301544060330, 181364558516701060],
  [182141069784012180, 182207481019120330, 182240692689192130, 182257300542009780, 182265605141081450, 182269757664855510, 182271834001492880, 182272872194729450, 182273391299653940, 182273650854885040],
  [183053386767326880, 183120465262618300, 183154010654237060, 183170785398318780, 183179173453187440, 183183367708248650, 183185464911659260, 183186513538659000, 183187037860590630, 183187300024367080],
  [183970270038493780, 184038022497267320, 184071904963464230, 184088848275786420, 184097320625093840, 184101557030814290, 184103675310701230, 184104734476321430, 184105264067690700, 184105528866228450],
  [184891742418630330, 184960175611512170, 184994398539002970, 185011512113391200, 185020069604206090, 185024348584172160, 185026488152345940, 185027557962497590, 185028092876261920, 185028360336040360],
  [185817826842567630, 185886947608187220, 185921514417710570, 185938799965008920, 185947443452911630, 185951765434966210, 185953926505365900, 185955007067024390, 185955547356673430, 185955817504438000],
  [186748546359413610, 186818361605086590, 186853275751745720, 186870734999987690, 186879465349155620, 186883830765441000, 186886013554155560, 186887104975371330, 186887650694932370, 186887923557697310],
  [187683924133118970, 187754440835536690, 187789705809144580, 187807340503725810, 187816158587019920, 187820567874020970, 187822772599310950, 187823874989220340, 187824426193263500, 187824701798314570],
  [188623983443045760, 188695208648972000, 188730827974399940, 188748639878252710, 188757546577304640, 188762000175892350, 188764227058211730, 188765340527047830, 188765897270691670, 188766175645588910],
  [189568747684539160, 189640688511513540, 189676665749043220, 189694656642812540, 189703652848112910, 189708151203588570, 189710400465606640, 189711525124710330, 189712087463627410, 189712368636207740],
  [190518240369501440, 190590904006550280, 190627242752229630, 190645414434451090, 190654501045438330, 190659044607578050, 190661316474201810, 190662452436032920, 190663020426455220, 190663304424835370],
  [191472485126969400, 191545878835323220, 191582582721325410, 191600937008605090, 191610114933755320, 191614704156855000, 191616998855251610, 191618146233400150, 191618719932124850, 191619006784704060],
  [192431505703693940, 192505636817512500, 192542709512498910, 192561248239694810, 192570518396612890, 192575153739533510, 192577471499153040, 192578630408350490, 192579209872745530, 192579499608208520],
  [193395325964723030, 193470201891827690, 193507647101314360, 193526372121719740, 193535735437230780, 193540417363444340, 193542758416042610, 193543928972173590, 193544514260183400, 193544806907503170],
  [194363969893987360, 194439598116600410, 194477419583328210, 194496332768856880, 194505790179098870, 194510519156734810, 194512883736396650, 194514066056510270, 194514657226661670, 194514952815102330],
  [195337461594888520, 195413849670380570, 195452051174688980, 195471154416062170, 195480706866579670, 195485483368471570, 195487871711634270, 195489065913955900, 195489663025363880, 195489961584483690],
  [196315825290890660, 196392980852534760, 196431566212739570, 196450861419675100, 196460509865513710, 196465334369246530, 196467746714723310, 196468952918666570, 196469556031040230, 196469857590694450],
  [197299085326114480, 197377016083848410, 197415989156623110, 197435478258026150, 197445223663827830, 197450096651785830, 197452533240789800, 197453751566968270, 197454360740616720, 197454665330960770],
  [198287266165934430, 198365979907130440, 198405344587891450, 198425029532047120, 198434872872146890, 198439794831561640, 198442255907730020, 198443486477969400, 198444101773807850, 198444409425300100],
  [199280392397578950, 199359896987820990, 199399657211116890, 199419539965885070, 199429482224408100, 199434453647407310, 199436939456825640, 199438182394175930, 199438803873731850, 199439114617136810],
  [200278488730732990, 200358792114602220, 200398951854506580, 200419034407518630, 200429076578478760, 200434097962135460, 200436608753362240, 200437864182110070, 200438491907529160, 200438805773920560],
  [201281579998144440, 201362690200012180, 201403253470520650, 201423537829377880, 201433680916777030, 201438752763159170, 201441288787250850, 201442556832931810, 201443190866984420, 201443507887748200],
  [202289691156232640, 202371616281061520, 202412587136492810, 202433075328967150, 202443320346895450, 202448443163116240, 202451004673652070, 202452285463063440, 202452925869150680, 202453246075988260]]

/-- Rows from 300 on. -/
def skRows3 : List (List Nat) := [
  [203302847285700380, 203385595519853500, 203426978055254200, 203447672129490780, 203458020102228230, 203463194400496760, 203465781653604340, 203467075314817540, 203467722156977730, 203468045581909090],
  [204321073592148660, 204404653204206830, 204446451555760580, 204467353580482530, 204477805542601080, 204483031840273490, 204485645094654280, 204486951757027910, 204487605099942860, 204487931775309850],
  [205344395406694710, 205428814748281850, 205471033093722410, 205492145158437430, 205502702154904570, 205507980974535880, 205510620491491120, 205511940285683640, 205512600194685300, 205512930153154730],
  [206372838186592560, 206458105693209330, 206500748252238060, 206522072467447220, 206532735553730440, 206538067423126630, 206540733466583410, 206542066524566420, 206542733065643280, 206543066340210270],
  [207406427515857070, 207492551707723250, 207535622742430330, 207557161239839090, 207567931482011150, 207573316934282080, 207576009770819770, 207577356225891170, 207578029465694810, 207578366089686110],
  [208445189105890970, 208532178588795730, 208575682404086080, 208597437336817080, 208608315811662920, 208613755385275480, 208616475284152380, 208617835270949570, 208618515276801520, 208618855283878730],
  [209489148796114580, 209577012262275660, 209620953206298770, 209642926749107320, 209653914544231270, 209659408783063340, 209662156016243620, 209663529670757030, 209664216510655360, 209664559934818460],
  [210538332554598950, 210627078783530470, 210671461248114870, 210693655597605850, 210704753811540730, 210710303264935460, 210713078107116250, 210714465566703030, 210715159309329040, 210715506184919740],
  [211592766478702180, 211682404338090820, 211727232759182630, 211749650134030250, 211760859876346900, 211766465099167600, 211769267827806590, 211770669231204270, 211771369945929630, 211771720307634610],
  [212652476795708380, 212743015242298740, 212788294100404860, 212810936741574250, 212822259132992560, 212827920685678260, 212830751581021330, 212832167068361630, 212832874825255160, 212833228708109880],
  [213717489863470200, 213808937943958890, 213854671764594390, 213877541935565550, 213888978108066350, 213894696556687850, 213897555901797140, 213898985614620020, 213899700484454710, 213900057923846620],
  [214787832171054180, 214880199022992800, 214926392377133060, 214949492364127040, 214961043461065400, 214966819377381730, 214969707458163900, 214971151539431800, 214971873593691850, 214972234625364050],
  [215863530339389760, 215956825192096950, 216003482696634000, 216026814808841380, 216038481985060770, 216044315946576360, 216047233051811360, 216048691645923360, 216049420956811380, 216049785616866220],
  [216944611121920380, 217038843297403310, 217085969615607230, 217109536185418710, 217121320607366470, 217127213197389030, 217130159618758590, 217131632871564960, 217132369512009190, 217132737836911800],
  [218031101405259040, 218126280319143730, 218173880161128310, 218197683544367860, 218209586390211720, 218215538197910430, 218218514230027540, 218220002288844250, 218220746332505900, 218221118359087940],
  [219123028209846290, 219219163372317540, 219267241495510560, 219291284071670870, 219303306531416800, 219309318151881170, 219312324092319540, 219313827105943010, 219314578627223410, 219314954392686650],
  [220220418690611480, 220317519707361980, 220366080916980690, 220390365089460830, 220402508365071980, 220408580399371390, 220411616548694940, 220413134667416980, 220413893741465310, 220414273283385420],
  [221323300137637370, 221421376710826830, 221470425860357620, 221494954056703250, 221507219362219900, 221513352417463730, 221516419079256920, 221517952454879630, 221518719157600250, 221519102513930520],
  [222431699976828110, 222530761906051410, 222580303897734610, 222605078569880460, 222617467131541550, 222623661820939870, 222626759301837900, 222628308087688900, 222629082495749040, 222629469704824090],
  [223545645770580120, 223645702953845460, 223695742739165090, 223720766363679990, 223733279420045690, 223739536362970400, 223742664972689870, 223744229323637750, 223745011514474990, 223745402615014890],
  [224665165218456410, 224766227653173430, 224816770233351600, 224842045311685960, 224854684113761330, 224861003935808280, 224864163987178210, 224865744059647810, 224866534111478110, 224866929142591880],
  [225790286157864400, 225892363941841910, 225943414368338320, 225968943427074100, 225981709238434060, 225988092571485490, 225991284380478570, 225992880332466760, 225993678324292040, 225994077325481910],
  [226921036564736640, 227024139897190470, 227075703272207050, 227101488863310060, 227114382960226000, 227120830442513700, 227124054328277810, 227125666319369260, 227126472330985410, 227126875342150460],
  [228057444554215120, 228161583736786180, 228213665213776510, 228239709914851520, 228252733586418520, 228259245862587580, 228262502147477940, 228264130338861010, 228264944450865870, 228265351512306230],
  [229199538381338720, 229304723819121230, 229357328603305260, 229383635017853510, 229396789566119360, 229403367287292800, 229406656296903850, 229408300851386840, 229409123145188160, 229409534297608950],
  [230347346441734290, 230453588644314210, 230506721993198280, 230533292750877570, 230546579490972820, 230553223314816440, 230556545378014620, 230558206460041920, 230559037017865660, 230559452302381100],
  [231500897272310690, 231608206854814700, 231661874078716370, 231688711835603910, 231702132095873350, 231708842686661620, 231712198135618230, 231713875911286820, 231714714816185240, 231715134274322710],
  [232660219551956710, 232768607236111520, 232822813698690120, 232849921137547840, 232863476259683200, 232870254288365690, 232873643458589990, 232875338095666030, 232876185431526090, 232876609105230280],
  [233825342102241590, 233934818717444410, 233989569836236530, 234016949666779080, 234030641005953270, 234037487150221540, 234040910380594430, 234042622048530070, 234043477900081700, 234043905831718930],
  [234996293888120070, 235106870372518970, 235162171619479750, 235189826578645280, 235203655503647660, 235210570448003140, 235214028080811010, 235215756950761230, 235216621403585870, 235217053635948240],
  [236173104018639790, 236284791420225650, 236340648322275070, 236368581174498700, 236382549067871910, 236389533503694440, 236393025884663200, 236394772129503090, 236395645270042340, 236396081846351930],
  [237355801747652690, 237468611225361840, 237525029364936630, 237553242902426680, 237567351160604960, 237574405786221570, 237577933264551510, 237579697058893430, 237580578974457500, 237581019938370780],
  [238544416474529950, 238658359299357510, 238715344314968970, 238743841357985860, 238758091391434370, 238765216912189430, 238768779840589930, 238770561360800990, 238771452139577600, 238771897535189790],
  [239738977744879910, 239854065301005120, 239911622887801760, 239940406284939840, 239954799518295900, 239961996646621370, 239965595381346250, 239967394805565950, 239968294536629020, 239968744408478510],
  [240939515251269950, 241055759037191930, 241113894947528680, 241142967576000760, 241157505448216010, 241164774903702870, 241168409804585930, 241170227312743960, 241171136086062680, 241171590479135410],
  [242146058833951620, 242263470463637060, 242322190507649510, 242351555273574460, 242366239238058770, 242373581747528720, 242377253178019860, 242379088951854130, 242380006858301710, 242380465818035800],
  [243358638481589510, 243477229685631760, 243536539731816320, 243566199570509280, 243581031095276000, 243588447392854360, 243592155720055690, 243594009943130470, 243594937074493410, 243595400646783640],
  [244577284331993390, 244697066958782970, 244756972934583050, 244786930810848900, 244801911378661450, 244809402205850350, 244813147800553080, 244815020658277340, 244815957107264710, 244816425338466940],
  [245802026672853910, 245923012689761130, 245983520582159160, 246013779490588400, 246028910599108780, 246036476704861340, 246040259941582740, 246042151621228780, 246043097481481050, 246043570418417300],
  [247032895942482420, 247155097437051420, 247216213293166470, 247246776258434710, 247262059420372690, 247269701561167990, 247273522818189080, 247275433508911040, 247276388875010040, 247276866564972440],
  [248269922730553440, 248393351911708610, 248455081839400460, 248485951916570580, 248501388659835310, 248509107599753870, 248512967259156660, 248514897152009660, 248515862119487660, 248516344610244100],
  [249513137778851620, 249637806978115930, 249700157146595000, 249731337421422240, 249746929289274780, 249754725800074810, 249758624247781280, 249760573535740460, 249761548201089590, 249762035540887670],
  [250762571982021610, 250888493654747180, 250951470295190450, 250982963884430620, 250998712435638310, 251006587296833200, 251010524922643250, 251012493800622950, 251013478261305410, 251013970498877730],
  [252018256388322100, 252145443114933210, 252209052521106800, 252240862572828040, 252256769381819720, 252264723380755890, 252268700578386580, 252270689243260040, 252271683597717150, 252272180782286060],
  [253280222200383620, 253408686687631780, 253472935216519000, 253505064910415920, 253521131567440200, 253529165499375440, 253533182666500270, 253535191317119150, 253536195664781690, 253536697846064250],
  [254548500775968980, 254678255858201260, 254743149930637880, 254775602478349330, 254791830589632750, 254799945257816190, 254804002796104950, 254806031633319120, 254807046074617170, 254807553302830110],
  [255823123628738780, 255954182269178450, 256019728370493280, 256052507015923430, 256068898203831330, 256077094419583330, 256081192734742190, 256083241961420130, 256084266597792950, 256084778923657570],
  [257104122429019580, 257236497721059450, 257302702401722770, 257335810421364760, 257352366324563270, 257360644907356890, 257364784409169020, 257366854230217730, 257367889164124050, 257368406638871450],
  [258391529004576320, 258525234173085660, 258592104049362370, 258625544752626160, 258642267026246120, 258650628803788690, 258654809906154980, 258656900528540800, 258657945863469120, 258658468538845300],
  [259685375341388670, 259820423744032280, 259887965498643320, 259921742228185900, 259938632543988190, 259947078352304260, 259951301473285100, 259953413106054240, 259954468946532820, 259954996874803800],
  [260985693584429830, 261122098713001500, 261190319095790820, 261224435227850450, 261241495274392900, 261250025957907730, 261254291519764530, 261256424374064010, 261257490825671860, 261258024059628800],
  [262292516038451570, 262430291520219660, 262499197348828490, 262533656293561720, 262550887776368060, 262559504187992070, 262563812617229640, 262565966906328150, 262567044075705280, 262567582668669940],
  [263605875168770010, 263745034767837990, 263814632928385070, 263849438130207600, 263866842771938040, 263875545773152040, 263879897500560920, 263882073439870730, 263883161434728560, 263883705440558800],
  [264925803602058110, 265066361220737080, 265136658668506910, 265171813606437730, 265189393147060740, 265198183608001980, 265202579068701870, 265204776875799700, 265205875804932500, 265206425278027080],
  [266252334127139720, 266394303807336260, 266465307567473300, 266500815755482020, 266518571952448330, 266527450751997590, 266531890385480700, 266534110280130050, 266535220253425130, 266535775248729780],
  [267585499695789010, 267728895620405760, 267800612788615640, 267836477775973920, 267854412404392470, 267863380430261910, 267867864680436760, 267870106884609310, 267871228013058560, 267871788586071100],
  [268925333423532860, 269070169917883850, 269142607661142530, 269178833032778250, 269196947885593070, 269206006034414800, 269210535349650980, 269212800087549280, 269213932483259740, 269214498690035810],
  [270271868590457470, 270418160123697580, 270491325680966230, 270527915057821950, 270546211945991660, 270555361123407500, 270559935956580110, 270562223454659740, 270563367230865380, 270563939128023750],
  [271625138642019090, 271772899828587390, 271846800511535710, 271883757550930240, 271902238303609130, 271911479424361060, 271916100232896020, 271918410719888450, 271919565990960880, 271920143635689590],
  [272985177189858110, 273134422790936070, 273209065984672320, 273246394380665970, 273265060845386420, 273274394833408260, 273279062079328190, 273281395786263300, 273282562667723850, 273283146117785490],
  [274352018012617610, 274502762937601910, 274578156101410000, 274615859585174010, 274634713628031340, 274644141416540740, 274648855566511200, 274651212726740520, 274652391335271280, 274652980649009170],
  [275725695056765550, 275877954364755630, 275954105032840090, 275992187373028900, 276011230878868000, 276020753410459810, 276025514935835780, 276027895785056140, 276029086238511890, 276029681474855230],
  [277106242437421210, 277260031338721480, 277336947120959770, 277375412124087740, 277394646996691170, 277404265223431900, 277409074600304990, 277411479376581650, 277412681794001460, 277413283012472140],
  [278493694439184970, 278649028296822630, 278726716879525060, 278765568390346720, 278784996552625050, 278794711436147690, 278799569145393880, 278801998089184340, 278803212590803620, 278803819851521570],
  [279888085516973330, 280044979848230890, 280123448994907730, 280162690896801770, 280182314290985730, 280192126802586300, 280197033329913470, 280199486684092080, 280200713391354490, 280201326755043860],
  [281289450296856660, 281447920774820150, 281527178326956830, 281566814542314370, 281586635130148840, 281596546250882970, 281601502086880190, 281603980096761680, 281605219132331570, 281605838660326550],
  [282697823576901600, 282857886032023970, 282937939909864380, 282977974400480180, 282997994163420700, 283008004884201940, 283013010524388040, 283015513437752400, 283016764925526650, 283017390679778230],
  [284113240328017750, 284274910749698310, 284355768953035170, 284396205720504020, 284416426659914110, 284426537981613150, 284431593926486250, 284434121993603770, 284435386058724470, 284436018101805810],
  [285535735694807870, 285699030232987600, 285780700841961360, 285821543928077400, 285841968065428870, 285852180998973310, 285857287754061290, 285859841227716950, 285861117996583690, 285861756391697040],
  [286965344996422790, 287130279963195230, 287212771139100510, 287254024626261230, 287274654003336360, 287284969569811920, 287290127645722330, 287292706781241740, 287293996381524480, 287294641192507240],
  [288402103727419710, 288568695598658220, 288652015584759310, 288693683596373160, 288714520275468510, 288724939506220940, 288730149418692490, 288732754473966900, 288734057034618640, 288734708325949780],
  [289846047558625570, 290014312975627030, 290098470097980210, 290140556798878580, 290161602863011290, 290172126799749460, 290177389069703510, 290180020305215800, 290181335956485430, 290181993793291830],
  [291297212338003500, 291467168109148620, 291552170777433630, 291594680374287180, 291615937927402630, 291626567622302860, 291631882775895450, 291634540454746310, 291635869328191620, 291636533776254760],
  [292755634091524690, 292927297193954510, 293013153902314240, 293056090644052360, 293077561811235050, 293088298327046170, 293093666895720530, 293096351283654470, 293097693512155560, 293098364637917890],
  [294221349024043450, 294394736605352680, 294481455933241220, 294524824111477300, 294546511039162940, 294557355449312380, 294562777969852060, 294565489335284260, 294566845053056350, 294567522923628150],
  [295694393520176670, 295869522900124660, 295957113513163730, 296000917462623380, 296022822318812930, 296033775707514300, 296039252722097160, 296041991336140110, 296043360678747300, 296044045361913250],
  [297174804145187870, 297351692817426320, 297440163468270280, 297484407567224530, 297506532541701720, 297517596004062740, 297523128060314640, 297525894196805400, 297527277301174280, 297527968865400360],
  [298662617645875740, 298841283279693050, 298930642808903150, 298975331479605530, 298997678784155090, 299008853426287400, 299014441077337420, 299017235012864750, 299018632017297830, 299019330531738020],
  [300157870951465630, 300338331393550120, 300428588730476690, 300473726439605190, 300496298308233940, 300507585247363690, 300513229051899000, 300516051065831380, 300517462110021130, 300518167644524400],
  [301660601174507180, 301842874450726970, 301934038614400970, 301979629873504170, 302002428562664250, 302013828927243700, 302019529449565670, 302022379824078920, 302023805049121660, 302024517674238890],
  [303170845611774680, 303354949928975790, 303447030029009210, 303493079394957080, 303516107183771560, 303527622113591490, 303533379923672260, 303536258943777800, 303537698492187690, 303538418279178880],
  [304688641745172740, 304874595492995090, 304967600730490370, 305014112805929080, 305037371996419700, 305049002642723930, 305054818316262870, 305057726269836390, 305059180285559970, 305059907306401230],
  [306214027242645980, 306401848995357720, 306495788663826410, 306542768097638370, 306566261014955290, 306578008540555420, 306583882659037200, 306586819836847300, 306588288465277540, 306589022792668270],
  [307747039959093030, 307936748477443190, 308031631963733410, 308079083451501570, 308102812444156260, 308114678023547800, 308120611174300190, 308123577870037510, 308125061258028570, 308125802965398950],
  [309287717937285080, 309479332170374960, 309575168955608760, 309623097240085530, 309647064680184680, 309659049499664780, 309665042275917670, 309668038786223990, 309669537082106050, 309670286243623920],
  [310836099408788860, 311029638495961500, 311126438156481480, 311174848028062430, 311199056311545770, 311211161569331580, 311217214570275800, 311220241194774240, 311221754548367830, 311222511238946630],
  [312392222794893740, 312587706067643660, 312685478275968250, 312734374573170990, 312758826120050190, 312771053026398480, 312777166857246310, 312780223898570770, 312781752461202170, 312782516756508140],
  [313956126707543980, 314153573691444510, 314252328217234480, 314301715827181400, 314326413081781970, 314338762859110410, 314344938131155530, 314348025894981250, 314349569819497530, 314350341795957390],
  [315527849950274300, 315727280366925660, 315827027077958550, 315876910936865360, 315901856368071070, 315914330251080210, 315920567581759070, 315923686376833050, 315925245817617290, 315926025552425800],
  [317107431519151480, 317308865288147260, 317409614151302940, 317459999244971570, 317485195346470930, 317497794582267520, 317504094595221220, 317507244733393130, 317508819846379900, 317509607417507510],
  [318694910603719120, 318898367844633090, 319000128926888430, 319051020291205070, 319076469581740520, 319089195429962520, 319095558755098810, 319098740551352150, 319100331494043050, 319101126980243940],
  [320290326587947320, 320495827622340190, 320598611091774200, 320650013813212200, 320675718836831990, 320688572569774160, 320694999843330470, 320698213615814120, 320699820547293660, 320700624028113350],
  [321893719051188020, 322101284404633830, 322205100531442270, 322257019747570170, 322282983073882680, 322295965976623560, 322302457841230970, 322305703911290960, 322307326992242230, 322308138548025690],
  [323505127769132810, 323714778173266120, 323819637330787140, 323872078230782050, 323898302455211840, 323911415825742730, 323917972930489820, 323921251622701320, 323922891015422390, 323923710727322100],
  [325124592714777200, 325336349109360850, 325442261775110060, 325495229600275670, 325521717344323590, 325534962493677900, 325541585494175700, 325544897136375810, 325546553004795620, 325547380954779530],
  [326752154059388760, 326966037594401590, 327073014351118370, 327126514395408550, 327153268306913200, 327166646559297680, 327173336117745280, 327176681041065430, 327178353550760410, 327179189821620260],
  [328387852173479870, 328603884211226550, 328711935747929690, 328765973358477380, 328792996111880000, 328806508804806780, 328813265590057610, 328816644128956940, 328818333447167430, 328819178122527030],
  [330031727627785170, 330249929745026160, 330359066858081480, 330413647435732630, 330440941732344060, 330454590216764720, 330461414904393220, 330464827396691840, 330466533692338870, 330467386856662350],
  [331683821194243830, 331904215184347230, 332014448778544920, 332069577778397820, 332097146346668780, 332110931987109110, 332117825259478310, 332121272046391170, 332122995490093320, 332123857228693660],
  [333344173846986840, 333566781722101590, 333678122811744730, 333733805743694920, 333761651339488110, 333775575514184560, 333782538060514520, 333786019486685520, 333787760250776060, 333788630649823820]]

/-- Rows from 400 on. -/
def skRows4 : List (List Nat) := [
  [335012826763327810, 335237670756578970, 335350130466582840, 335406372895873690, 335434498302739470, 335448562403776940, 335455594920213210, 335459111333749700, 335460869592293720, 335461748738825120],
  [336689821324760410, 336916923892465830, 337030513459468510, 337087321007246470, 337115729036701040, 337129934470152010, 337137037659835750, 337140589412343030, 337142365341155030, 337143253323081130],
  [338375199117958690, 338604582941868600, 338719313715352330, 338776692059228880, 338805385551035130, 338819733737100130, 338826908310237920, 338830495756854870, 338832289533515880, 338833186439631390],
  [340069001935783270, 340300689925342090, 340416573368766220, 340474528243384700, 340503510065835730, 340518002438985260, 340525249112920450, 340528872612354710, 340530684416230630, 340531590336222380],
  [341771271778292570, 342005287072923200, 342122334764868100, 342180871962476490, 342210145012682600, 342224783021800580, 342232102521084650, 342235762435648560, 342237592447907750, 342238507472363960],
  [343482050853757770, 343718416825168910, 343836640460492070, 343895765831521340, 343925333035699200, 343940118144227740, 343947511200693100, 343951207896339900, 343953056299971390, 343953980520390660],
  [345201381579683760, 345440121834200360, 345559533225203200, 345619252678851830, 345649116992616990, 345664050678702640, 345671518031535610, 345675251877896180, 345677118857727880, 345678052366528410],
  [346929306583834540, 347170444964751620, 347291056042358590, 347351375547182680, 347381539955844640, 347396623712486310, 347404166108300880, 347407937478720400, 347409823221437710, 347410766111966490],
  [348665868705263060, 348909429295222960, 349031252110172610, 349092177694681790, 349122645213542640, 349137880548740440, 349145498741653150, 349149308013228680, 349151212707393060, 349152165073935020],
  [350411110995346720, 350657118118740690, 350780164842787780, 350841702596047650, 350872476270703060, 350887864707609310, 350895559459314430, 350899407012932580, 350901330849000470, 350902292786788240],
  [352165076718827570, 352413554944220720, 352537837871351720, 352599993943591320, 352631076850235060, 352646619927306450, 352654392007152310, 352658278227527110, 352660221397868870, 352661193003092230],
  [353927809354857310, 354178783497438500, 354304315045098030, 354367095648324840, 354398490894055890, 354414190165207150, 354422040350272890, 354425965625984510, 354427928324903810, 354428909694718860],
  [355699352598047500, 355952847722103110, 356079640432433570, 356143051841053210, 356174762564186560, 356190619598945760, 356198548674119060, 356202513397652640, 356204495821405630, 356205487053945250],
  [357479750359524690, 357735791780937880, 357863858322030950, 357927906873474500, 357959936243854120, 357975952627519740, 357983961385575180, 357987965953359870, 357989968300175250, 357990969494558240],
  [359269046767990260, 359527660056765050, 359657013223926170, 359721705319282280, 359754056538598400, 359770233872397560, 359778323114076240, 359782367926524920, 359784390396623160, 359785401652964580],
  [361067286170786360, 361328497153596670, 361459149870621840, 361524491975276550, 361557168277385390, 361573508178633850, 361581678712722830, 361585764174272240, 361587806969886170, 361588828389307160],
  [362874513134965460, 363138347897730200, 363270313218195860, 363336311862478030, 363369316513724680, 363385820615988710, 363394073259402460, 363398199778553580, 363400263103948080, 363401294788586130],
  [364690772448366480, 364957257338849890, 365090548447415560, 365157210227249250, 365190546526794080, 365207216480053650, 365215552057915180, 365219720047273940, 365221804108767030, 365222846161785880],
  [366516109120694850, 366785270751133650, 366919900964857630, 366987232542420580, 367020903822569050, 367037741293382380, 367046160639106290, 367050370515425090, 367052475521407770, 367053528047008130],
  [368350568384608240, 368622433634364240, 368758416404033060, 368826424508421950, 368860434134957520, 368877440806628160, 368885944762003390, 368890196946222320, 368892323107180180, 368893386210609680],
  [370194195696808060, 370468791715048220, 370606140626518290, 370674832054420950, 370709183426941050, 370726360999685810, 370734950414960060, 370739245332249660, 370741392860783190, 370742466648347370],
  [372047036739134600, 372324390947537250, 372463119723091100, 372532501339465080, 372567197891721210, 372584548082840040, 372593223816804830, 372597561896607870, 372599731007454260, 372600815586526970],
  [373909137419669410, 374189277515157860, 374329400014873340, 374399478753631550, 374434523953871970, 374452048497919600, 374460811417996020, 374465193094070990, 374467384004125450, 374468479483159540],
  [375780543873840750, 376063497831344560, 376205028054478020, 376275810919181170, 376311208270497470, 376328908919457110, 376337759901782310, 376342185612246430, 376344398540583810, 376345505029122140],
  [377661302465536670, 377947098540779980, 378090050627163250, 378161544691719100, 378197297732396340, 378215176255854260, 378224116185369510, 378228586372742560, 378230821540639300, 378231939149325610],
  [379551459788220900, 379840126520539430, 379984514751990690, 380056727161360570, 380092839465230680, 380110897650553410, 380119927421092180, 380124442532341090, 380126700163297190, 380127829003887040],
  [381451062666056360, 381742628881241810, 381888467682991060, 381961405653903370, 381997880830702180, 382016120483214980, 382025240997592410, 382029801484175560, 382032081803937140, 382033221989309250],
  [383360158155032220, 383654652968206180, 383801956910334300, 383875627732005150, 383912469427732990, 383930892370900310, 383940104541003340, 383944710858915890, 383947014095497760, 383948165739665270],
  [385278793544097640, 385576246362613190, 385725030161506330, 385799441196367130, 385836653093653350, 385855261169261130, 385864565916139770, 385869218525959050, 385871544909667390, 385872708127789150],
  [387207016356299810, 387507456882673230, 387657735402490660, 387732894086923860, 387770479905394190, 387789274973733870, 387798673227693440, 387803372594625220, 387805722358080600, 387806897266472910],
  [389144874349928300, 389448332584799410, 389600120838957100, 389676034684038450, 389713998180687390, 389732982120741450, 389742474821435150, 389747221415360130, 389749594793520910, 389750781509668790],
  [391092415519664250, 391398921764786840, 391552234917455640, 391628911509703960, 391667256479269360, 391686431188899990, 391696019285423220, 391700813580943700, 391703210811129380, 391704409453698800],
  [393049688097735390, 393359272958997340, 393514126326615860, 393591573328751220, 393630303604093750, 393649671000231600, 393659355451216510, 393664197927704400, 393666619249619340, 393667829938468640],
  [395016740555076500, 395329434945550210, 395485843998353250, 395564069150061430, 395603188602547600, 395622750621383940, 395632532395095440, 395637423536739650, 395639869192497150, 395641092048689220],
  [396993621602495010, 397309456745518730, 397467437109080740, 397546448227786620, 397585960767675270, 397605719364855100, 397615599439287790, 397620539735142760, 397623009969289170, 397624245115103680],
  [398980380191842530, 399299387624132210, 399458955080926510, 399538760062574360, 399578669639407500, 399598626790225170, 399608606153200630, 399613596097235530, 399616091156774830, 399617338715720080],
  [400977065517192100, 401299277091984320, 401460447582957750, 401541054402799750, 401581365005796940, 401601522705393740, 401611602354659760, 401616642445807420, 401619162580225790, 401620422677051450],
  [402983727016020180, 403309174906246950, 403471964532410620, 403553381245803120, 403594096904260130, 403614457167823290, 403624638111153380, 403629728853360550, 403632274314651250, 403633547075360630],
  [405000414370395400, 405329131071890650, 405493556095926020, 405575790839134010, 405616915622825420, 405637480485789810, 405647763741083860, 405652905643361300, 405655476686050110, 405656762237912880],
  [407027177508172190, 407359195842910180, 407525272690791880, 407608333681801220, 407649871701386960, 407670643219638150, 407681029815024330, 407686223391497890, 407688820272668330, 407690118744233080],
  [409064066604189940, 409399419723556270, 409567164986191110, 409651060525529330, 409693015932965050, 409713996183045150, 409724487156982600, 409729732926944670, 409732355906263720, 409733667427370930],
  [411111132081478760, 411449853469574290, 411619283904456320, 411704022376021160, 411746399364973330, 411767590444288300, 411778186845670950, 411783485333632100, 411786134673376320, 411787459375171360],
  [413168424612469970, 413510548089447380, 413681680622329820, 413767270494226410, 413810073300491240, 413831477327520530, 413842180215781850, 413847531951523530, 413850207916605110, 413851545931551290],
  [415235995120212490, 415581554845646900, 415754406572231180, 415840856397617540, 415884089299543930, 415905708414052080, 415916518859271260, 415921924377898530, 415924627235891940, 415925978697783770],
  [417313894779595790, 417662925255888850, 417837513443529400, 417924831861470680, 417968499180387730, 417990335543638480, 418001254626647060, 418006714468642240, 418009444489810900, 418010809533787520],
  [419402175018577900, 419754711094395440, 419931053183823460, 420019248920153960, 420063355020802880, 420085410815774740, 420096439628264680, 420101954339541560, 420104711796864750, 420106090559423250],
  [421500887519418910, 421856964393164140, 422035078000226800, 422124159868421900, 422168709159391370, 422190986590996200, 422202126235629310, 422207696367587200, 422210481536787620, 422211874155796870],
  [423610084219921340, 423969737443242060, 424149640360660140, 424239617262715740, 424284614196883110, 424307115492186140, 424318367082703990, 424323993192283300, 424326806351854360, 424328212966568990],
  [425729817314675700, 426093082796006810, 426274792995149830, 426365673922471320, 426411122997446990, 426433850405889470, 426445215067224680, 426450897716962600, 426453739148196400, 426455159899270270],
  [427860139256311740, 428227053264453280, 428410588897132390, 428502382931432320, 428548288690009190, 428571244483633140, 428582723352022160, 428588463110108570, 428591333097123970, 428592768126624470],
  [430001102756756610, 430371701924487480, 430557081324766340, 430649797638971270, 430696164669578100, 430719351143253670, 430730945366349920, 430736742806684520, 430739641636455630, 430741091087877910],
  [432152760788497570, 432527082116225810, 432714323802249400, 432807971661415610, 432854804598576120, 432878224070230400, 432889934807219310, 432895790509468680, 432898718471853600, 432900182490134880],
  [434315166585851670, 434693247445301110, 434882370121143300, 434976958883381830, 435024262408177170, 435047917219026140, 435059745640740890, 435065660190396700, 435068617578166220, 435070096309700250],
  [436488373646241730, 436870251784175280, 437061274341704450, 437156813459115460, 437204592299651830, 437228484814434210, 437240432103472830, 437246406091910390, 437249393200777400, 437250886793429250],
  [438672435731476540, 439058149273457560, 439251090794221470, 439347589813837670, 439395848745718810, 439419981352932430, 439432048703775890, 439438082728312920, 439441099856962320, 439442608460082840],
  [440867406869039660, 441256994323229880, 441451874080358860, 441549342645099260, 441598086491903180, 441622461604043690, 441634650223175320, 441640744887132040, 441643792337250040, 441645316101691160],
  [443073341353381910, 443466841614378390, 443663679074508220, 443762126924140200, 443811360557901530, 443835980611703280, 443848291717729340, 443854447630488650, 443857525706793180, 443859064784922770],
  [445290293747221850, 445687746099931840, 445886560925145460, 445985997897257210, 446035726238953480, 446060593695633200, 446073028519404780, 446079246296473180, 446082355306744570, 446083909852461710],
  [447518318882850890, 447919763006405800, 448120575056194540, 448221011087177620, 448271239107220600, 448296356452723400, 448308916237459510, 448315196500528490, 448318336755639880, 448319906924390380],
  [449757471863445790, 450162947835154270, 450365777168398740, 450467222294439710, 450517955013172650, 450543324758420050, 450556010759831520, 450562354136840130, 450565525950788670, 450567111899580340],
  [452007808064386380, 452417356363726440, 452622223240697760, 452724687598780270, 452775930086978670, 452801554768119970, 452814368254535430, 452820775379732530, 452823979069671020, 452825580957089530],
  [454269383134579980, 454683044647232310, 454889969531612700, 454993463360529420, 455045220739907800, 455071102918573330, 455084045171065640, 455090516685073480, 455093752571341780, 455095370557566710],
  [456542252997792360, 456960069019712540, 457169072580636810, 457273606222011570, 457325883665735170, 457352025929292090, 457365098241806560, 457371634791685020, 457374903197842120, 457376537444662570],
  [458826473853983900, 459248486095517070, 459459589209633840, 459565173108954090, 459617975842155290, 459644380803966590, 459657584483450010, 459664186722761260, 459667487975617620, 459669138646448770],
  [461122102180653380, 461548352770688520, 461761576524242670, 461868221231902250, 461921554532202940, 461948224831887920, 461961561198419810, 461968229787293190, 461971564216943660, 461973231476842810],
  [463429194734186850, 463859726224353550, 464075091915289720, 464182808087641990, 464236677285680320, 464263615589378970, 464277085976302870, 464283821581501630, 464287189521358050, 464288873537041350],
  [465747808551213910, 466182663920121240, 466400193060207910, 466508991460629610, 466563401940592710, 466590610941231700, 466604216695288790, 466611019990276000, 466614421777100840, 466616122716959850],
  [468078000949969680, 468517223607486960, 468736937924461710, 468846829424427660, 468901786624589280, 468929269042151330, 468943011523614840, 468949883188621330, 468953319162561210, 468955037196679780],
  [470419829531663160, 470863463323244050, 471085384762981340, 471196380343149230, 471251889756413030, 471279648338208440, 471293528921019950, 471300469643111740, 471303940147731760, 471305675447902730],
  [472773352181852700, 473221441392902550, 473445592121601990, 473557702872908790, 473613770047356940, 473641807568298430, 473655827640204760, 473662838113352180, 473666343495669650, 473668096235412660],
  [475138627071827250, 475591216432113750, 475817618838510890, 475930855963280130, 475987486502727520, 476015805765607110, 476029966728299240, 476037047653446300, 476040588263966030, 476042358618544350],
  [477515712659993870, 477972847348102560, 478201524045702110, 478315898858761990, 478373098423315810, 478401702259085290, 478416005528338590, 478423157613472580, 478426733806221570, 478428521952659840],
  [479904667693273030, 480366393341106840, 480597367170437970, 480712891100250660, 480770665406876020, 480799556674929370, 480814003680744870, 480821227640967740, 480824839773530580, 480826645890632430],
  [482305551208498970, 482771913905823090, 483005207936717110, 483121892526519800, 483180247349610400, 483209428938070030, 483224021124817480, 483231317682416920, 483234966115971870, 483236790384337790],
  [484718422533827350, 485189468832859820, 485425106366750910, 485542963275708160, 485601904447663410, 485631379273668280, 485646118100230340, 485653487984752110, 485657173084106850, 485659015686152290],
  [487143341290149940, 487619118210197440, 487857122782446990, 487976163786814130, 488035697198621370, 488065468208618780, 488080355148536990, 488087799096858020, 488091521230486250, 488093382350459820],
  [489580367392514830, 490060922424655710, 490301317806898910, 490421554801197930, 490481686403020870, 490511756573060830, 490526793114682790, 490534311871084340, 490538071411163010, 490539951235164760],
  [492029561051553900, 492514942163367930, 492757752365884570, 492879197364091320, 492939933165864750, 492970305501896800, 492985493148525310, 492993087464768010, 492996884787213220, 492998783503214160],
  [494490982774917530, 494981238415262710, 495226487689371830, 495349152826114790, 495410498898144100, 495441176436318900, 495456516706361530, 495464187341759980, 495468022826266370, 495469940624125580],
  [496964693368715000, 497459872472551900, 497707585313030040, 497831482844802130, 497893445318370410, 497924431125341760, 497939925552463100, 497947673273962180, 497951547304039820, 497953484375524800],
  [499450753938962180, 499950905932227870, 500201107079751780, 500326249386133750, 500388834454113390, 500420131627345100, 500435781760619920, 500443607342871570, 500447520305883990, 500449476844689630],
  [501949225893036060, 502454400697565240, 502707115141178840, 502833514726074540, 502896728643546290, 502928340311622560, 502944147715690330, 502952051941130190, 502956004228334200, 502957980430101530],
  [504460170941135140, 504970418979632220, 505225671959238780, 505353341452123360, 505417190537000970, 505449119859937450, 505465086115159680, 505473069774085800, 505477061780669720, 505479057843006080],
  [506983651097748980, 507499023298807880, 507756840307687200, 507885792464867620, 507950283098528740, 507982533268089220, 507998659970706080, 508006723861358410, 508010755986482110, 508012772108980660],
  [509519728683132010, 510040276486308040, 510300683273657590, 510430930979546040, 510496069607469570, 510528643847485090, 510544932609775900, 510553077538415320, 510557150185249570, 510559186569509030],
  [512068466324784740, 512594241685716690, 512857264259220110, 512988820527620050, 513054613660029680, 513087515226719870, 513103967677163870, 513112194458153170, 513116308033920510, 513118364883565980],
  [514629926958944020, 515160982354526900, 515426646982946960, 515559524958351600, 515625979170866590, 515659211353165460, 515675829136604700, 515684138592489890, 515688293508505080, 515690371029207650],
  [517204173832077590, 517740562265687930, 518008895481485870, 518143108440390660, 518210230374681750, 518243796494566420, 518260581272369960, 518268974233962610, 518273170905673600, 518275269305171490],
  [519791270502386250, 520333045509159800, 520604074111140980, 520739635463368110, 520807431827821520, 520841335240644020, 520858288690874390, 520866765997334390, 520871004844363960, 520873124332483150],
  [522391280841315240, 522938496493476020, 523212247549461840, 523349170839499330, 523417648409886850, 523451892504708780, 523469016322289150, 523477578821208900, 523481860267397150, 523484001056071850],
  [525004269035068670, 525556979947314210, 525833480796841220, 525971779705193820, 526040945325348570, 526075533525281120, 526092829422164880, 526101477969653940, 526105802443099620, 526107964746394150],
  [527630299586135160, 528188560921072140, 528467839178117750, 528607527522673600, 528677388105174270, 528712323867718860, 528729793573061020, 528738529033831560, 528742896966935740, 528745081001065620],
  [530269437314817270, 530833304788454650, 531115388344190650, 531256480081598960, 531327042608460220, 531362329425854390, 531379974686184090, 531388797933637500, 531393209763146540, 531395415746499990],
  [532921747360770060, 533491277248065630, 533776194273638860, 533918703500703740, 533989975024073100, 534025616423639710, 534043439003034660, 534052350919348620, 534056807086397700, 534059035239557940],
  [535587295184546750, 536162544325008320, 536450323274349510, 536594264229436550, 536666251872299050, 536702251416798530, 536720253097061830, 536729254573278800, 536733755523435980, 536736006069202650],
  [538266146569149750, 538847172372495030, 539137841985155510, 539283229049612930, 539355940006502040, 539392301294488250, 539410483875325810, 539419575811441900, 539424121994753100, 539426395158164840],
  [540958367621590850, 541545228073462400, 541838817377479390, 541985665077072880, 542059106614789490, 542095833280969220, 542114198580170110, 542123381885225090, 542127973756258460, 542130269764615850],
  [543664024774458110, 544256778442194400, 544553316756985580, 544701639763348610, 544775819221686310, 544812914937282720, 544831464790900610, 544840740383068650, 544845378400960810, 544847697483848130],
  [546383184787489890, 546981890825956500, 547281407765241980, 547431220897339400, 547506145689817860, 547543614162936920, 547562350425473820, 547571719232155770, 547576403860656640, 547578746249965750],
  [549115914749155520, 549720632906632880, 550023158381388910, 550174476606996120, 550250154221601050, 550287999197602150, 550306923742193490, 550316386700108910, 550321118407628960, 550323484337582110]]

/-- Rows from 500 on. -/
def skRows5 : List (List Nat) := [
  [551862282078244950, 552473072702376070, 552778636923815420, 552931475361012380, 553007913360943520, 553046138622813820, 553065253341415820, 553074811396696870, 553079590656353740, 553081980363526660],
  [554622354525464490, 555239278569261210, 555547912051846360, 555702285970525510, 555779491994952000, 555818101363684290, 555837408167262680, 555847062275549130, 555851889565214680, 555854303288560760],
  [557396200175039890, 558019319202950080, 558331052767434540, 558486977590825100, 558564959355648420, 558603956690622840, 558623457509344270, 558633208635878220, 558638084438226670, 558640522419100610],
  [560183887446327590, 560813263640363300, 561128128416863990, 561285619723071160, 561364385021695150, 561403774221064570, 561423471004489660, 561433320124212470, 561438244926768360, 561440707408950390],
  [562985485095432790, 563621181261358510, 563939208692459320, 564098282216019070, 564177838920128370, 564217623921208420, 564237518638485880, 564247466736135890, 564252441031322790, 564254928261043050],
  [565801062216836500, 566443141790420140, 566764363634305920, 566925035267754340, 567005391328101420, 567045576107763130, 567065670747827020, 567075718818037540, 567080743103227580, 567083255329190640],
  [568630688245026600, 569279215298353480, 569603663631976640, 569765949427436480, 569847112874633860, 569887701449701640, 569907998021470510, 569918147068869330, 569923221846432570, 569925759319842130],
  [571474432956141190, 572129472203990320, 572457179426267100, 572621095597049740, 572703074542373500, 572744070970026000, 572764571502602420, 572774822541912360, 572779948319267770, 572782511293851960],
  [574332366469616360, 574993983275900690, 575324982110941610, 575490545033164330, 575573347669362930, 575614756047538600, 575635462590413690, 575645816646554050, 575650993936218740, 575653582668255960],
  [577204559249841310, 577872819634112640, 578207143134484590, 578374369348705040, 578458003950818420, 578499828418624610, 578520743041881400, 578531201150070200, 578536430469712330, 578539045218055960],
  [580091082107823930, 580766052751843610, 581103734301863040, 581272640514729880, 581357115440915190, 581399360179041890, 581420484973562850, 581431048179420720, 581436330051910020, 581438971078015080],
  [582992006202860440, 583673754457234260, 584014827776296830, 584185430862216330, 584270754554582350, 584313423785720530, 584334760863396310, 584345430223050220, 584350765176510990, 584353432744459750],
  [585907403044216800, 586595996935097390, 586940496081037240, 587112813083857500, 587198994069308240, 587242092058570160, 587263643552511060, 587274420132700810, 587279808700564430, 587282503077093170],
  [588837344492813870, 589532852728669720, 589880812101154970, 590054860235866390, 590141907126952090, 590185438182298950, 590207206247047250, 590218091125231590, 590223533846290160, 590226255300815550],
  [591781902762923330, 592484394741375870, 592835849085336540, 593011645739789720, 593099567235567250, 593143535708238480, 593165522519984840, 593176516784449060, 593182014202908310, 593184763007554560],
  [594741150423868980, 595450696238598210, 595805680647690370, 595983243384330500, 596072048271231640, 596116458556180170, 596138666312980010, 596149771062945180, 596155323728480340, 596158100158106480],
  [597715160401739060, 598431830849457010, 598790380769559200, 598969727327179580, 599059424479888070, 599104281016219340, 599126711938213630, 599137928283946040, 599143536751755570, 599146341083982510],
  [600704005981103170, 601427872568598840, 601790023801345820, 601971172096856380, 602061770479194860, 602107077750610260, 602129734080246320, 602141063143168800, 602146727974030250, 602149560489269100],
  [603707760806738990, 604438895757992740, 604804684464342860, 604987652594558770, 605079161260383530, 605124923795627850, 605147807797884350, 605159250710687970, 605164972471014460, 605167833452493970],
  [606726498885366100, 607464975148735470, 607834437852574970, 608019244096022050, 608111672190126740, 608157894563441670, 608181008526053950, 608192566432811810, 608198345694708110, 608201235428503680],
  [609760294587388980, 610506185842866080, 610879359434649410, 611066022253387560, 611159379012416840, 611206065843996800, 611229412077686450, 611241086133967580, 611246923475287530, 611249842250349120],
  [612809222648646230, 613562603315188610, 613939525055614200, 614128063097079780, 614222357850451080, 614269513806905090, 614293094645610920, 614304886018595600, 614310782023000030, 614313730131181650],
  [615873358172169730, 616634303415103500, 617015010938827160, 617205443037693890, 617300685208528900, 617348315003347720, 617372132804457680, 617384042673054770, 617389997930069510, 617392975666157700],
  [618952776629949890, 619721362368447910, 620105893687834160, 620298238867890990, 620394437973956930, 620442546367982450, 620466603512570830, 620478633067535180, 620484648172610020, 620487655834354350],
  [622047553864711390, 622823856779344840, 623212250288254260, 623406527764304220, 623503693418964360, 623552285220866000, 623576584113930760, 623588734557982050, 623594810112550820, 623597848000692280],
  [625157766091694960, 625941863632062110, 626334158109677140, 626530387289454660, 626628529202627310, 626677609269382410, 626702152340084810, 626714424888028410, 626720561499568730, 626723629917870830],
  [628283489900447560, 629075460292878240, 629471694907567950, 629669895393674590, 629769023372803330, 629818596610182350, 629843386312090870, 629855782190938450, 629861980473031870, 629865079728311260],
  [631424802256622680, 632224724511958910, 632624938825182450, 632825130417042670, 632925254368075220, 632975325731131550, 633000364542466300, 633012884991559170, 633019145563953220, 633022275966109460],
  [634581780503786550, 635389734425242500, 635793968395490590, 635996171091326760, 636097301019704350, 636147875513269510, 636173165937150060, 636185812208282670, 636192135696953180, 636195297558999780],
  [637754502365234510, 638570568556333720, 638978862543110620, 639183096541938810, 639285242553594790, 639336325232778000, 639361869797473600, 639374643155019000, 639381030192231810, 639384223830328410],
  [640943045945813500, 641767305818406520, 642179700586251440, 642385986289896090, 642489158592264860, 642540754562958810, 642566555822141150, 642579457543176850, 642585908767551320, 642589134501034380],
  [644147489733755690, 644980025516116960, 645396562238666550, 645604920253795620, 645709129156832320, 645761243576222460, 645787304109220320, 645800335483656350, 645806851540229350, 645810109691644680],
  [647367912602517900, 648208807347525040, 648629527611614510, 648839978751795770, 648945234669005100, 648997872746085260, 649024195158142900, 649037357488850790, 649043939029140980, 649047229924275730],
  [650604393812631320, 651453731406023830, 651878677215832400, 652091242503609360, 652197555953085300, 652250722949177680, 652277309871715140, 652290604474657430, 652297252156730640, 652300576124645790],
  [653857013013558420, 654714878182281920, 655144091963516530, 655358792632505080, 655466174237981520, 655519875467262510, 655546729558138090, 655560157762501000, 655566872251035940, 655570229624099210],
  [657125850245559010, 657992328566190460, 658425853170313390, 658642710667321510, 658751171159231920, 658805411989262960, 658832535933039090, 658846099081364570, 658852881047719070, 658856272161638480],
  [660410985941564770, 661286163848823260, 661724042557321740, 661943078544487230, 662052628761036940, 662107414613300500, 662134811121512280, 662148510569832060, 662155360692110390, 662158785885967450],
  [663712500929061910, 664596465724404400, 665038742253101930, 665259978610054400, 665370629498302320, 665425965848743950, 665453637660169230, 665467474778141380, 665474393741261810, 665477853357545580],
  [667030476431982830, 667923316292285180, 668370034795697950, 668593493621741020, 668705256238692280, 668761148618266920, 668789098499201130, 668803074670245720, 668810063166009360, 668813557550650590],
  [670364994072606900, 671266798058932530, 671718003134667730, 671943706750983190, 672056592264693650, 672113046259918000, 672141277004449880, 672155393625888200, 672162452353047940, 672165981855453890],
  [673716135873468060, 674626993939923640, 675082730633122710, 675310701584998030, 675424721275688040, 675481742529199820, 675510256959490730, 675524515442684240, 675531645107014620, 675535210080103710],
  [677083984259273460, 678003987261953990, 678464301069780040, 678694562128856030, 678809727390037690, 678867321601158350, 678896122567724100, 678910524338216090, 678917725652583830, 678921326452821020],
  [680468622058829080, 681397861764851140, 681862798641021680, 682095372807564630, 682211695147178920, 682269868072482380, 682298958454478780, 682313504952136570, 682320778636571600, 682324415624004390],
  [683870132506975170, 684808701603601570, 685278307962966100, 685513218468161750, 685630709509727340, 685689466963616390, 685718849669125950, 685733542348284770, 685740889130052900, 685744562668346660],
  [687288599246529330, 688236591350384840, 688710914073548880, 688948184381819590, 689066855865593030, 689126203720879220, 689155881687202520, 689170722016810830, 689178142630485690, 689181853086960420],
  [690724106330239950, 691681615996618710, 692160702434613340, 692400356245958650, 692520220030106940, 692580164218597310, 692610140412546040, 692625129876312600, 692632625063849740, 692636372809516710],
  [694176738222747700, 695143860955013400, 695627758934013060, 695869820186373570, 695990888248156840, 696051434761246690, 696081712179440400, 696096852275982640, 696104422786792900, 696108208196391950],
  [697646579802554830, 698623412061636330, 699112169887721400, 699356662759366530, 699478947196335380, 699540102085606040, 699570683754771500, 699585975997764780, 699593622588790070, 699597446040826710],
  [701133716364005820, 702120355577985980, 702614022041956210, 702860970953895330, 702984483985096610, 703046253362921170, 703077142340194950, 703092588258524030, 703100311694312190, 703104173571095720],
  [704638233619275130, 705634778193077050, 706133402575309740, 706382832193728400, 706507586160926540, 706569976201078950, 706601175574312310, 706616776712224570, 706624577765006830, 706628478452688540],
  [708160217700364780, 709166767025533050, 709670399100892990, 709922334339612290, 710048341708520870, 710111358646793290, 710142871534861400, 710158629452121190, 710166508901888000, 710170448790499540],
  [711699755161109740, 712716409625691070, 713225099668488250, 713479565691450650, 713606839052975850, 713670489187802040, 713702318740915480, 713718235012958980, 713726193647539440, 713730173131031740],
  [715256932979195040, 716283793977717080, 716797592766713350, 717054614990491650, 717183167061990470, 717247456755073830, 717279606155093050, 717295682373186880, 717303720988326410, 717307740464609800],
  [718831838558178590, 719869008501728550, 720387967325195600, 720647571421528080, 720777415048077100, 720842350725026680, 720874823185780430, 720891060957180260, 720899180356620480, 720903240227603820],
  [722424559729526560, 723472142055930020, 723996312716757520, 724258524615108280, 724389672770786220, 724455260921758420, 724488059689364040, 724504460637475590, 724512661633034780, 724516762304665600],
  [726035184754654590, 727093283938757330, 727622718759612410, 727887564649757480, 728020030438939580, 728086277619286470, 728119405972475200, 728135971737015810, 728144255148669890, 728148397030975450],
  [729663802326981300, 730732523891032440, 731267275719570620, 731534782054209090, 731668578712876000, 731735491543799980, 731768952794244370, 731785685031407350, 731794051687372180, 731798235194499920],
  [733310501573989190, 734389952098128420, 734930074312257260, 735200267809650310, 735335408706709040, 735402993875924070, 735436791368568340, 735453691751188290, 735462142488002070, 735466368038261370],
  [736975372059294900, 738065659192146170, 738611205705339610, 738884113351974920, 739020611990593140, 739088876252992740, 739123013366387480, 739140083584107740, 739148619246714910, 739152887262619030],
  [740658503784729910, 741759736254098420, 742310761520767820, 742586410574050070, 742724280593004070, 742793230771336560, 742827710917975900, 742844952677417310, 742853574119252600, 742857885027560550],
  [744359987192429470, 745472274816107220, 746028833837023330, 746307251827993120, 746446507003029190, 746516149988577890, 746550976615241160, 746568391640172520, 746577099723246920, 746581453955006030],
  [748079913166931300, 749203366863610500, 749765515191380660, 750046729927459390, 750187384172668640, 750257726925941480, 750292903514037190, 750310493545547440, 750319289140533830, 750323687131123820],
  [751818373037284350, 752953104837579260, 753520898582179300, 753804938149942990, 753947005519150600, 754018055070574370, 754053585136487950, 754071351933160500, 754080235919481180, 754084678108655950],
  [755575458579166150, 756721581636745620, 757295077471107500, 757581970239086670, 757725464927254250, 757797228377877310, 757833115473322490, 757851060811411390, 757860034077325010, 757864520909258350],
  [759351262017009880, 760508890619840260, 761088145785495370, 761377920407005100, 761522856751647750, 761595341273849130, 761631588986222780, 761649714659829020, 761658778102520480, 761663310025849710],
  [763145876026141400, 764315125607843790, 764900197920622710, 765192883336617980, 765339275819235480, 765412488657440720, 765449100610181830, 765467408431433350, 765476562957103310, 765481140424974100],
  [766959393734925520, 768140380886243820, 768731328742033310, 769026954183996700, 769174817431518380, 769248765902923920, 769285745755874890, 769304237555108240, 769313484079062950, 769318107549174270],
  [770791908726922110, 771984751207307490, 772581633587864840, 772880228580720530, 773029577366965710, 773104268862269080, 773141620312041940, 773160297937984130, 773169637384727550, 773174307319378670],
  [774643515043051380, 775848331792362130, 776451208271188000, 776752802636245900, 776903651883398190, 776979093867536370, 777016820647881850, 777035685967835730, 777045119271162040, 777049836137297350],
  [778514307183769750, 779731218334087770, 780340149082357710, 780644772940286690, 780797137720383340, 780873337733278160, 780911443615459060, 780930498515490060, 780940026618576420, 780944790887832760],
  [782404380111254540, 783633506998819930, 784248552791375370, 784556236565207040, 784710132101643410, 784787097758954910, 784825586552122040, 784844832937246340, 784854456792748030, 784859268941501610],
  [786313829251598990, 787555294428863890, 788176516650262740, 788487291068424610, 788642732737473440, 788720471731359730, 788759347282933950, 788778787077308890, 788788507647453490, 788793368156868360],
  [790242750497016670, 791496677744819510, 792124138395448270, 792438034494827590, 792595037827173570, 792673557927059840, 792712824123114910, 792732459270231750, 792742277526916300, 792747186882991290],
  [794191240208056330, 795457754547918350, 796091516250163890, 796408565379202190, 796567146061492200, 796646455114846230, 796686115880498350, 796705948343375710, 796715865268263210, 796720823961881150],
  [798159395215826430, 799438622922369690, 800078748926854090, 800398982748673150, 800559156625081130, 800639262558197310, 800679321857996310, 800699353619377150, 800709370203994990, 800714378730971610],
  [802147312824229320, 803439381437719280, 804085935629596430, 804409386125154820, 804571169198964210, 804652080017754460, 804692541856080810, 804712774918630200, 804722892164469270, 804727951025602430],
  [806155090812204460, 807460129151219310, 808113176056535510, 808439875527816360, 808603283963016480, 808685007753810570, 808725876175274740, 808746312561779900, 808756531480394520, 808761641181515290],
  [810182827435984750, 811500965610208920, 812160570402325010, 812490551475558380, 812655601598457590, 812738146528810160, 812779425618657090, 812800067372229780, 812810388985339020, 812815550037361300],
  [814230621431359480, 815561990854506320, 816228219360586880, 816561514989500420, 816728223290355570, 816811597609862500, 816853291494379290, 816874140678660000, 816884566018249770, 816889778937221690],
  [818298572015948890, 819643305418812200, 820316224126377040, 820652867595483360, 820821250730145750, 820905462771266540, 820947575618195940, 820968634317559890, 820979164425985960, 820984429733141400],
  [822386778891488890, 823745010335125080, 824424686398668410, 824764711326581590, 824934786118158570, 825019844297050430, 825062380316005460, 825083650635771500, 825094286565863770, 825099604787674620],
  [826495342246125540, 827867207135166480, 828553708382841420, 828897148725629460, 829068932166164220, 829154844983520890, 829197808426406920, 829219292493047000, 829230035308214710, 829235406976443430],
  [830624362756720350, 832009997852819990, 832703392793189430, 833050282847759970, 833223792099926140, 833310568141827720, 833353963303266370, 833375663264618810, 833386514038957210, 833391939690709850],
  [834773941591164440, 836173485026580700, 836873842855436290, 837224217262953960, 837399469661769500, 837487117600539260, 837530948818298300, 837552866843782280, 837563826662179400, 837569306839959500],
  [838944180410705250, 840357771702014050, 841065162309264330, 841419056058606150, 841596069113162140, 841684597708233480, 841728869363658890, 841751007644491230, 841762077602736430, 841767612854499450],
  [843135181372280540, 844562961434231260, 845277455410857320, 845634903842098660, 845813695237307670, 845903113336097840, 845947829854552910, 845970190603966890, 845981371808860920, 845986962688068330],
  [847347047130865860, 848789158290371990, 849510826935452670, 849871865743392100, 850052453341751630, 850142769880545840, 850187935731852970, 850210521185319520, 850221814754784650, 850227461820459640],
  [851579880841829910, 853036466852100650, 853765382179909610, 854130047417625310, 854312449261001750, 854403673265845310, 854449292964731860, 854472105380183200, 854483512443375130, 854489216260159030],
  [855833786163301850, 857304992218114450, 858041226965286550, 858409555047731380, 858593789359159580, 858685929946759010, 858732008053309180, 858755049711364690, 858766571408785260, 858772332546993140],
  [860108867258548340, 861594840006663110, 862338467639433830, 862710495347064620, 862896580532566290, 862989646911200480, 863036188031310220, 863059461235503570, 863071098719115220, 863076917754793330],
  [864405228798361280, 865906116358080560, 866657211079596900, 867032975562040980, 867220930212461240, 867314931682900420, 867361940468737910, 867385447545748210, 867397201979088510, 867403079494071690],
  [868722975963455930, 870238927937328610, 870997564695033230, 871377103474791020, 871566946367654430, 871661892324088780, 871709373474559570, 871733116774442950, 871744989332741420, 871750925914711570],
  [873062214446880360, 874593381936551840, 875359636429642090, 875742987405827990, 875934737507210880, 876030637438188790, 876078595699404920, 876102577595830020, 876114569466125290, 876120565708669780],
  [877423050456433630, 878969586077646760, 879743534764606830, 880130736216726060, 880324412683150170, 880421276172525760, 880469716338279540, 880493939228764740, 880506051610023200, 880512108112694540],
  [881805590717097790, 883367648614840360, 884149368721050420, 884540459312814520, 884736081493157820, 884833918221048040, 884882845133291290, 884907311439443890, 884919545542680000, 884925662911055420],
  [886209942473476320, 887787678337283060, 888577247862702140, 888972266645883030, 889169854083310890, 889268673827061660, 889318092376389790, 889342804544148420, 889355161592545100, 889361340438287450],
  [890636213492247850, 892229784571651600, 893027282298581120, 893426268716902790, 893625841150817290, 893725653785980590, 893775568912120620, 893800529411999310, 893813010641030620, 893819251581949190],
  [895084512064626800, 896694077184766900, 897499582685687850, 897902576578758380, 898104153946768470, 898204969448087770, 898255386140392050, 898280597467727630, 898293204125281880, 898299507785394330],
  [899554947008837780, 901180666586222760, 901994260231713710, 902401301838995040, 902604904278905870, 902706732721312200, 902757656019257050, 902783120694457780, 902795854040963130, 902802221050557820],
  [904047627672597870, 905689663731026410, 906511426697760060, 906922556662579310, 907128204514401070, 907231056074019110, 907282491067707800, 907308211636506070, 907321072945055370, 907327503940754670]]

/-- Rows from 600 on. -/
def skRows6 : List (List Nat) := [
  [908562663935613540, 910221180122252630, 911051194401072240, 911466453774672020, 911674167582649480, 911778052537814290, 911830004368485580, 911855983402192080, 911868973958670800, 911875469583494300],
  [913100166212084270, 914775327813709820, 915613676217786970, 916033106463416120, 916242906978078960, 916347835710361020, 916400309570903680, 916426549666663660, 916439670769878560, 916446231673307290],
  [917660245453220300, 919352219412619270, 920198985585692270, 920622628582738550, 920834536762971130, 920940519758213770, 920993520893684460, 921020024674737990, 921033277636546270, 921039904474588340],
  [922243013149770880, 923951968082305840, 924807236507001520, 925235134555165240, 925449171570297750, 925556219419664200, 925609753127811290, 925636523243755480, 925649909389196830, 925656602824452100],
  [926848581334561520, 928574687544901920, 929438543551140390, 929870739374649570, 930086926606570660, 930195050007601120, 930249121639394380, 930276160766447740, 930289681433875960, 930296442135602920],
  [931477062585044780, 933220492084065350, 934093021857548310, 934529558609416670, 934747917654705790, 934857127412385750, 934911742372551200, 934939053213821240, 934952709755038230, 934959538399220890],
  [936128570025861200, 937889496547707270, 938770787138491990, 939211708404818870, 939432261076901660, 939542568104740680, 939597731852300140, 939625317138053370, 939639110918444710, 939646008187859500],
  [940803217331410500, 942581816350735880, 943471955681894060, 943917305486208550, 944140073817533030, 944251489138654390, 944307207187470220, 944335069675405340, 944349002074076190, 944355968658361230],
  [945501118728436330, 947297567477811210, 948196644354175700, 948646467161821850, 948871473406056550, 948984008154298140, 949040286073624920, 949068428549148390, 949082500959061520, 949089537554784510],
  [950222388998619260, 952036866486112640, 952944970603110420, 953399311325680360, 953626577959933660, 953740243380959280, 953797086796000120, 953825512072504020, 953839725900618970, 953846833211347950],
  [954967143481183130, 956799830508121620, 957717052460695580, 958175956460502830, 958405506187566750, 958520313639988900, 958577728232456930, 958606439151600150, 958620795819014290, 958627974555387220],
  [959735498075512990, 961586577254414470, 962513008546034780, 962976521640635570, 963208377391249450, 963324338347763320, 963382329856449490, 963411329288442820, 963425830230532830, 963433081110328170],
  [964527569243781850, 966397225016470000, 967332958068234990, 967801126534993220, 968035311470131920, 968152437518661500, 968211011740007910, 968240302583899000, 968254949250464680, 968262272998674560],
  [969343474013591510, 971231892669491300, 972177020829319890, 972649891410017760, 972886428923201820, 973004731768056170, 973063894556734930, 973093479740699280, 973108273596108640, 973115670945010250],
  [974183329980624420, 976090699675237870, 977045317227153350, 977522937132649240, 977761850852279430, 977881342315321380, 977941099584819520, 977970982066453000, 977985924589787550, 977993396279016680],
  [979047255311304900, 980973766084873270, 981937968258381030, 982420385173312860, 982661698965026170, 982782390986852890, 982842748710062750, 982872931476676910, 982888024161881380, 982895570938506230],
  [983935368745474710, 985881212541826020, 986855095521382930, 987342357608920550, 987586095577971900, 987708000219106320, 987768964428923200, 987799450497843600, 987814694853873280, 987822317472469500],
  [988847789599078130, 990813160284663260, 991796821219243950, 992288977125885870, 992535163619551840, 992658293061647640, 992719869851571610, 992750662270439590, 992766059821412760, 992773759044138270],
  [993784637766859450, 995769731149976580, 996763268162734760, 997260367023156690, 997509026633165230, 997633393180222480, 997695588704966990, 997726690552044360, 997742242837393240, 997750019434064970],
  [998746033725071790, 1000751047575284900, 1001754559773311600, 1002256651215259200, 1002507808780241900, 1002633424859835400, 1002696245335942500, 1002727659720418800, 1002743368295044800, 1002751223043215300],
  [1003732098534199500, 1005757232601947800, 1006770820086124600, 1007277954235360900, 1007531634843331600, 1007658513007851500, 1007721964714312800, 1007753694776616600, 1007769561211043900, 1007777494896079500],
  [1008742953841686800, 1010788409878093100, 1011812173753047700, 1012324401238344600, 1012580630229201000, 1012708783157107100, 1012772872435989900, 1012804921348101100, 1012820947228636200, 1012828960643794900],
  [1013778721884685800, 1015844703661559000, 1016878746045718800, 1017396118003901200, 1017654920971952800, 1017784361469038200, 1017849094726121400, 1017881465691890000, 1017897652620778400, 1017905746567289700],
  [1018839525492811100, 1020926238822850100, 1021970662858594100, 1022493230939635400, 1022754633736156700, 1022885374736828400, 1022950758442239500, 1022983454697705100, 1022999804293291600, 1023007979580436100],
  [1023925488090906000, 1026033140848105500, 1027088050712021000, 1027615867084188000, 1027879895819996700, 1028011950388565500, 1028077991077428700, 1028111015891143800, 1028127529788034400, 1028135787233225600],
  [1029036733701824900, 1031165535842082200, 1032231036755323200, 1032764154110371900, 1033030835158434000, 1033164216490418700, 1033230920763508400, 1033264277436863500, 1033280957286089300, 1033289297714954600],
  [1034173386949221800, 1036323550531152600, 1037399748769900500, 1037938220328326300, 1038207580326386100, 1038342301749831500, 1038409676274228400, 1038443368141785500, 1038460215610967400, 1038468639857430600],
  [1039335573060356700, 1041507312266315100, 1042594315172345000, 1043138194688683700, 1043410260541920300, 1043546335518727800, 1043614387028487800, 1043648417458310400, 1043665434231825500, 1043673943138189900],
  [1044523417868908600, 1046716949026219600, 1047814865017571200, 1048364206785753900, 1048639005669466300, 1048776447796736300, 1048845183093563000, 1048879555487553900, 1048896743266703700, 1048905337683737200],
  [1049737047817804900, 1051952589420205900, 1053061528001963900, 1053616386860723900, 1053893946223040000, 1054032769234431200, 1054102195188353400, 1054136912982594500, 1054154273485776200, 1054162954272795700],
  [1054976589962059700, 1057214362691357500, 1058334434466535200, 1058894865804873000, 1059175213369487800, 1059315431136586800, 1059385554686646600, 1059420621351741700, 1059438156314618400, 1059446924339576400],
  [1060242171971626300, 1062502398719569200, 1063633715400104900, 1064199775162803100, 1064482938931743600, 1064624565465450800, 1064695393620395400, 1064730812661818100, 1064748523837493300, 1064757379977063600],
  [1065533922134259400, 1067816828024629400, 1068959502442491400, 1069531247135687200, 1069817255392105700, 1069960304844032600, 1070031844683015300, 1070067619641458400, 1070085508800650600, 1070094453940316500],
  [1070851969358394000, 1073157781769314600, 1074311927887716400, 1074889414584531300, 1075178295895525100, 1075322782559408200, 1075395041232694800, 1075431175684424600, 1075449244615644400, 1075458279649787500],
  [1076196443176031000, 1078525391762502500, 1079691124687231300, 1080274411033453400, 1080566194252915700, 1080712132566042100, 1080785117295726000, 1080821614852938600, 1080839865362668100, 1080848991194657500],
  [1081567473745638300, 1083919790462295000, 1085097226453151100, 1085686370672979100, 1085981084944475000, 1086128489489125200, 1086202207569847000, 1086239071881031000, 1086257505793903900, 1086266723336185400],
  [1086965191855064700, 1089341110979158800, 1090530367461514500, 1091125428363353300, 1091423103123027900, 1091571988627929700, 1091646447427607500, 1091683682177907500, 1091702301336890700, 1091711611511080000],
  [1092389728924462700, 1094789487079078600, 1095990682655546700, 1096591719637868000, 1096892384617379700, 1097042765959179200, 1097117972919744400, 1097155581831328400, 1097174388097907800, 1097183791834881600],
  [1097841217009229600, 1100265053186728500, 1101478307648949900, 1102085380706205300, 1102389065935693600, 1102540958140440400, 1102616920778579500, 1102654907611012600, 1102673902865377700, 1102683401105366700],
  [1103319788802953500, 1105767944388652000, 1106993378729202200, 1107606548457799900, 1107913284268877800, 1108066702513524600, 1108143428421431800, 1108181796972051000, 1108200983113283600, 1108210576805966400],
  [1108825577640378600, 1111298296436463600, 1112536032860877300, 1113155360465213900, 1113465177493994900, 1113620137107912500, 1113697633954047100, 1113736388058340400, 1113755767004603800, 1113765457109202100],
  [1114358717500377900, 1116856245750059200, 1118106407688974600, 1118731954987532800, 1119044884177684900, 1119201400644192300, 1119279676174044000, 1119318819706034000, 1119338393394766100, 1119348180880140300],
  [1119919343008943100, 1122441929420847200, 1123704641542270800, 1124336470973775700, 1124652543579606500, 1124810632537515800, 1124889694574380200, 1124929231447010900, 1124949001835116100, 1124958887679862900],
  [1125507589442182800, 1128055485214988600, 1129330873436686000, 1129969048066320700, 1130288295655896200, 1130447972901074900, 1130527829346832600, 1130567763512360400, 1130587732576406000, 1130597717768955500],
  [1131123592729335000, 1133697051576657400, 1134985243078663600, 1135629826604351400, 1135952281062641700, 1136113562549588700, 1136194221385495100, 1136234556835885400, 1136254726572299000, 1136264812111013700],
  [1136767489455792600, 1139366767631312600, 1140667890868571100, 1141318947627316800, 1141644641159377100, 1141807543002813800, 1141889012290298400, 1141929753057621300, 1141950125482890900, 1141960312376165300],
  [1142439416866144800, 1145064773188986900, 1146378957904112100, 1147036552878409700, 1147365518012591000, 1147530056489071800, 1147612344370540900, 1147653494527376100, 1147674071678251000, 1147684360944612700],
  [1148139512867220500, 1150791208747590100, 1152118585983759500, 1152782784808061000, 1153115054399254800, 1153281245948791200, 1153364360648440400, 1153405924308284800, 1153426708241978700, 1153437100910190800],
  [1153867916031159200, 1156546215496228800, 1157886917610201300, 1158557786577454600, 1158893393810366700, 1159061255038067100, 1159145204862706300, 1159187186180382900, 1159208178974780900, 1159218676083943000],
  [1159624765598483200, 1162329935318538700, 1163684095993807400, 1164361702062053900, 1164700680454516600, 1164870228132244800, 1164955021472124500, 1164997424644198800, 1165018628398063700, 1165029230997717400],
  [1165410201481187600, 1168142510796036600, 1169510265056108000, 1170194675855152500, 1170537059261463300, 1170708310329512000, 1170793955659162100, 1170836784924361600, 1170858201757544800, 1170868910907778300],
  [1171224364265844100, 1173984085211484700, 1175365569433294000, 1176056853271435300, 1176402675885734800, 1176575647454516400, 1176662153333593600, 1176705412973230400, 1176727045026882900, 1176737861798437300],
  [1177067395216712400, 1179854802552269400, 1181250154479727600, 1181948380350562600, 1182297676710243700, 1182472386061997400, 1182559761136139100, 1182603455474538700, 1182625304911325400, 1182636230385700000],
  [1182939436278872000, 1185754807513800900, 1187164166271480000, 1187869403860769500, 1188222208849920100, 1188398673440438400, 1188486926442126000, 1188531059847058600, 1188553128851374400, 1188564164120937100],
  [1188840630081360800, 1191684245502922600, 1193107751609874100, 1193820071302483000, 1194176420155365100, 1194354657615734100, 1194443797365165500, 1194488374248282600, 1194510665026471100, 1194521811194566400],
  [1194771119940329700, 1197643262641338600, 1199081058025053100, 1199800530911957400, 1200160459216518800, 1200340487354878900, 1200430522760850200, 1200475547578125100, 1200498062358698600, 1200509320539757500],
  [1200731049862211200, 1203632005769060600, 1205084233779564400, 1205810931664926700, 1206174475366350800, 1206356312169673800, 1206447252230467700, 1206492729482641200, 1206515470516503800, 1206526841836156000],
  [1206720564546896700, 1209650622447862200, 1211117427871957300, 1211851423280277000, 1212218618684566000, 1212402282320449800, 1212494136124733600, 1212540070357764300, 1212563039918436200, 1212574525513622800],
  [1212739809390933000, 1215699260964758000, 1217180790040401400, 1217922156223733600, 1218293040001327200, 1218478548819810400, 1218571325547546300, 1218617721353062800, 1218640921736908200, 1218652522755994300],
  [1218788930490726900, 1221778070335494100, 1223274470766322500, 1224023281711570600, 1224397890901003700, 1224585263436394700, 1224678972359753600, 1224725834375514900, 1224749267901971500, 1224760985504862500],
  [1224868074645766400, 1227887200308053300, 1229398621278053800, 1230154951714333400, 1230533323725927800, 1230722578698655500, 1230817229182945600, 1230864562093304300, 1230888231105114700, 1230900066463370200],
  [1230977389361852100, 1234026801366182700, 1235553393554506400, 1236317318960585600, 1236699491580179100, 1236890647898661800, 1236986249403262200, 1237034057939632200, 1237057964803078100, 1237069919100030800],
  [1237117022854346700, 1240197024732928300, 1241738940328857600, 1242510536940668200, 1242896548333382700, 1243089625095914900, 1243186187175220300, 1243234476116548900, 1243258623221687900, 1243270697652561000],
  [1243287124051431300, 1246398022374195700, 1247955415092253800, 1248734759910482000, 1249124648624527900, 1249319665121184500, 1249417197425560300, 1249465971598807200, 1249490361359711300, 1249502557131739000],
  [1249487842597381900, 1252629947002319100, 1254202972097537700, 1254990142895286400, 1255383947865804400, 1255580923580368900, 1255679435857113900, 1255728700137731900, 1255753334992728900, 1255765653325275200],
  [1255719328855854000, 1258892952079652300, 1260481766362986000, 1261276841693517400, 1261674602246461900, 1261873556858366900, 1261973058952687400, 1262022818265110400, 1262047700677027800, 1262060142801710100],
  [1261981733913182500, 1265187191822171100, 1266791953676069300, 1267595012880621500, 1267996768736680200, 1268197722122974700, 1268298223978966800, 1268348483297101400, 1268373615753512800, 1268386182914324100],
  [1268275209581697400, 1271512821203097500, 1273133690597231200, 1273944813812917000, 1274350605091468100, 1274553577328799200, 1274655088990443500, 1274705853338166500, 1274731238351638400, 1274743931805072400],
  [1274599908403050400, 1277869995956537300, 1279507134463680900, 1280326402631461400, 1280736269854577500, 1280941281221194200, 1281043812833356800, 1281095087285015900, 1281120727393361900, 1281133548408537600],
  [1280955983651553900, 1284258872581134200, 1285912443393207900, 1286739938265950500, 1287153922362434100, 1287360993340211100, 1287464555149657700, 1287516344830579900, 1287542242597110800, 1287555192455900300],
  [1287343589337537800, 1290679608343743100, 1292349776288014700, 1293185580438627400, 1293603722748091800, 1293812874024572900, 1293917476380992300, 1293969786467995000, 1293995944481778000, 1294009024478934300],
  [1293762880210716100, 1297132361283115700, 1298819292838565800, 1299663489668215000, 1300085831945206200, 1300297084415668200, 1300402737772705300, 1300455573494614100, 1300481994370729700, 1300495205814015600],
  [1300214011763569800, 1303617290213609800, 1305321153527456300, 1306173827273867600, 1306600411692024600, 1306813786461564500, 1306920501377863700, 1306973868016034600, 1307000554395838700, 1307013898606158500],
  [1306697140234742300, 1310134554728909200, 1311855519633301500, 1312716755379141800, 1313147624535401200, 1313363142921039700, 1313470930061300300, 1313524832950146700, 1313551787501534700, 1313565265813065200],
  [1313212422612446800, 1316684315205761900, 1318422553234639800, 1319292436915984200, 1319727633834825700, 1319945317367635500, 1320054187503676000, 1320108632031202500, 1320135857448875000, 1320149471209199500],
  [1319760016637892600, 1323266732807739600, 1325022417213859300, 1325901035628741900, 1326340603766477600, 1326560474193731700, 1326670438205565200, 1326725429813905600, 1326752928819638900, 1326766679389882300],
  [1326340080808720500, 1329881969489009700, 1331655275261140400, 1332542716078193200, 1332986699327297400, 1333208778614638500, 1333319847491560600, 1333375391677520900, 1333403167020438400, 1333417055775402200],
  [1332952774382452600, 1336530187998124700, 1338321291878420000, 1339217643645593600, 1339666086339079100, 1339890396672712100, 1340002581514396200, 1340058683830005300, 1340086738286851500, 1340100766615151900],
  [1339598257379960000, 1343211551881833200, 1345020632383370200, 1345925984536746600, 1346378931452582200, 1346605495241487900, 1346718807259094900, 1346775473312157000, 1346803809687576700, 1346817978991783600],
  [1346276690588938400, 1349926225488902700, 1351753462913401400, 1352667905786091900, 1353125402151665900, 1353354242029836000, 1353468692547132700, 1353525928001790400, 1353554549128607500, 1353568860825383500],
  [1352988235567403800, 1356674373973964400, 1358519950429679700, 1359443575260813700, 1359905666757440900, 1360136805586137800, 1360252406040628100, 1360310216617925800, 1360339125357427000, 1360353580877670700],
  [1359733054647196800, 1363456163301371200, 1365320262721168300, 1366253161664969800, 1366719894432445200, 1366953355302480800, 1367070117246548800, 1367128508725005700, 1367157707967226400, 1367172308756214400],
  [1366511310937505100, 1370271760249079300, 1372154568408684000, 1373096834543641100, 1373568255184837200, 1373804061418879500, 1373921996520941200, 1373980974737127100, 1374010467401140700, 1374025214918671700],
  [1373323168328397700, 1377121332412539100, 1379023036948975400, 1379974764287100400, 1380450919872611300, 1380689095027509800, 1380808215073179600, 1380867785922299300, 1380897574956507400, 1380912470677049200],
  [1380168791494375900, 1384005048208613300, 1385925838638819900, 1386887122135002300, 1387368060207836900, 1387608628076972400, 1387728944970238700, 1387789114406721200, 1387819202789150000, 1387834248201986200],
  [1387048345897932400, 1390923076879503700, 1392863144619142200, 1393834080180594000, 1394319848760912000, 1394562833376572000, 1394684359140986700, 1394745133179078400, 1394775523917675300, 1394790720527054600],
  [1393961997793134100, 1397875588496703400, 1399835126879147900, 1400815811374947600, 1401306458964844800, 1401551884600620200, 1401674631380499000, 1401736016094866100, 1401766712227800000, 1401782061553085800],
  [1400909914229210700, 1404862753964961400, 1406841958260483400, 1407832489531209500, 1408328065119552300, 1408575956292759000, 1408699936354393800, 1408761937880727900, 1408792942476694400, 1408808446052517500],
  [1407892263054160300, 1411884745026267600, 1413883812461408400, 1414884289328873100, 1415384842396179900, 1415635223870305900, 1415760449603188900, 1415823074138821200, 1415854390297347900, 1415870049673759300],
  [1414909212918372200, 1418941734263858900, 1420960864040995400, 1421971386318075100, 1422476966841447000, 1422729863628621900, 1422856347546684300, 1422919601351204200, 1422951232202959500, 1422967048945585700],
  [1421960933278260100, 1426033895106235000, 1428073288423343600, 1429093956923908400, 1429604615382008500, 1429860052745499000, 1429987807488359100, 1430051696884238400, 1430083645591347100, 1430099621281546400],
  [1429047594399911100, 1433161401831201200, 1435221261901816400, 1436252178450755700, 1436767965828841000, 1437025969285571700, 1437155007619797200, 1437219538993023000, 1437251808749380700, 1437267944984400900],
  [1436169367362751100, 1440324429569926500, 1442404961643299500, 1443446229086651500, 1443967196881650700, 1444227792204749900, 1444358127025132400, 1444423306825845100, 1444455900857436500, 1444472199250575900],
  [1443326424063219200, 1447523154311015200, 1449624565692474000, 1450676287907654900, 1451202488133302000, 1451465701354672100, 1451597345685515200, 1451663180428651800, 1451696101993874700, 1451712564174641400],
  [1450518937218465000, 1454757752904606200, 1456880252976117900, 1457942534882253600, 1458474020074269000, 1458739877487183700, 1458872844483602100, 1458939340749548400, 1458972593139538100, 1458989220753815100],
  [1457747080370051400, 1462028403066483000, 1464172203307421400, 1465245150875781700, 1465781974097108100, 1466050502258836500, 1466184805208070500, 1466251969643316600, 1466285556182276300, 1466302350892483500],
  [1465011027887678900, 1469335283382206400, 1471500597390326400, 1472584317654866000, 1473126532500954700, 1473397758235408500, 1473533410558150400, 1473601249875956700, 1473635173921487700, 1473652137406750000],
  [1472310954972920900, 1476678573311261700, 1478865616823885800, 1479960217891888300, 1480507878496038800, 1480781828896449800, 1480918844148183600, 1480987365129249600, 1481021630072688400, 1481038764029003100],
  [1479647037662973400, 1484058453191232100, 1486267444106643900, 1487373035169472300, 1487926196208226200, 1488202898639848600, 1488341290512203300, 1488410500005346100, 1488445109272102600, 1488462415412508300],
  [1487019452834423600, 1491475104241982600, 1493706262641035900, 1494822953984992800, 1495381670683581200, 1495661152786421400, 1495800935108537700, 1495870840031375900, 1495905797081275800, 1495923277136024100]]

/-- Rows from 700 on. -/
def skRows7 : List (List Nat) := [
  [1494428378207027400, 1498928708569867100, 1501182256737811800, 1502310159755105200, 1502874487892951300, 1503156777584525000, 1503297964324437200, 1503368571664081000, 1503403879991711200, 1503421535708440300],
  [1501873992347503400, 1506419449171954600, 1508695611620477400, 1509834838820298900, 1510404834736574700, 1510689960214691800, 1510832565480720300, 1510903882294471300, 1510939545429529200, 1510957378573437000],
  [1509356474673347400, 1513947509940272600, 1516246513429760500, 1517397178449472200, 1517972899048711600, 1518260888794288800, 1518404926836450100, 1518476960252504200, 1518512981760151800, 1518530994114173300],
  [1516876005456651300, 1521513075666071700, 1523835149228094800, 1524997366844528900, 1525578869602295900, 1525869752382197600, 1526015237593626800, 1526087994811787800, 1526124378293006100, 1526142571657991900],
  [1524432765827946700, 1529116332044106700, 1531461707004126900, 1532635593144999800, 1533222936113615500, 1533516740983523800, 1533663687901910300, 1533737176194308400, 1533773925286258000, 1533792301481153600],
  [1532026937780055800, 1536757465676940300, 1539126375677245400, 1540312047432682800, 1540905289247008000, 1541202045554320500, 1541350468863360400, 1541424695575178200, 1541461813951562700, 1541480374813591000],
  [1539658704171962400, 1544436664079261100, 1546829345102130500, 1548026920736308900, 1548626120619585300, 1548925858006342200, 1549075772537204800, 1549150745087411500, 1549188236458844200, 1549206983843688400],
  [1547328248732696100, 1552154115682228200, 1554570806073323700, 1555780405036231000, 1556385622805980800, 1556688371211821600, 1556839791944628500, 1556915517826721700, 1556953385941097000, 1556972321723086100],
  [1555035756065229900, 1559910009837828100, 1562350950329824700, 1563572693269134000, 1564183989343118300, 1564489779008268600, 1564642721073589500, 1564719207856342000, 1564757456499210600, 1564776582571507200],
  [1562781411650394800, 1567704536823254700, 1570169970559702400, 1571403979332767500, 1572021414735005500, 1572330276203292500, 1572484754883657200, 1572562010211874300, 1572600643206818500, 1572619961481608900],
  [1570565401850809500, 1575537887845310600, 1578028060404735200, 1579274458090705200, 1579898094457551500, 1580210058579451300, 1580366089310872600, 1580444120906155200, 1580483142115174800, 1580502654523858000],
  [1578387913914822000, 1583410255044822000, 1585925414465068600, 1587184325377122800, 1587814224963408000, 1588129322899121500, 1588286921272638600, 1588365736934154800, 1588405150258050300, 1588424858751432100],
  [1586249135980471500, 1591321831501081000, 1593862228303895200, 1595133778001602000, 1595770003686834500, 1596088266909395700, 1596247448672629100, 1596327056277892500, 1596366865656656700, 1596386772205145500],
  [1594149257079460400, 1599272811236302000, 1601838698452160700, 1603123013753959300, 1603765629048585400, 1604087089347001100, 1604247870405725000, 1604328277911383500, 1604368487324592700, 1604388593918394900],
  [1602088467141145400, 1607263389220099600, 1609855022413288800, 1611152231409093500, 1611801300460826300, 1612125989943246100, 1612288386362977100, 1612369601805603800, 1612410215272818600, 1612430523922138500],
  [1610066956996540000, 1615293761373988400, 1617911398667928000, 1619221630731862900, 1619877218332069700, 1620205169428987800, 1620369197436586800, 1620451228933486900, 1620492250514651400, 1620512763249892500],
  [1618084918382335600, 1623364124575901000, 1626008026678724300, 1627331412481981000, 1627993584072137300, 1628324829539628000, 1628490505524921600, 1628573361274940600, 1628614795070789000, 1628635513942755100],
  [1626142543944935000, 1631474676664724800, 1634145106895113900, 1635481778418940200, 1636150600097147800, 1636485173020130400, 1636652513537546200, 1636736201821889500, 1636778051974356000, 1636798979054458700],
  [1634240027244504300, 1639625616444863300, 1642322840758139200, 1643672931306957000, 1644348469834524900, 1644686403630066200, 1644855425400284400, 1644939954583345500, 1644982225275978100, 1645003362656441300],
  [1642377562759036600, 1647817143690812900, 1650541430705287600, 1651905074919941700, 1652587397728038300, 1652928726148682100, 1653099446060306600, 1653184824590500100, 1653227520048878000, 1653248869842949400],
  [1650555345888433700, 1656049459151763000, 1658801080175353900, 1660178414046494800, 1660867589242859500, 1661212346379994400, 1661384781491237700, 1661471017901845500, 1661514142394002000, 1661535706736162200],
  [1658773572958600400, 1664322764556215800, 1667101993613325600, 1668493154494921500, 1669189250870651900, 1669537471157910900, 1669711638698296000, 1669798741608317800, 1669842299445166500, 1669864080491344300],
  [1667032441225559300, 1672637262616627500, 1675444376475290300, 1676849503098280700, 1677552590134679100, 1677904308351372900, 1678080225723454000, 1678168203838469800, 1678212199374235800, 1678234199302021500],
  [1675332148879573900, 1680993157034067200, 1683828435233367600, 1685247667719447000, 1685957815594942800, 1686313066869529300, 1686490751650628600, 1686579613763666500, 1686624051396320600, 1686646272405185800],
  [1683672895049291800, 1689390652502899800, 1692254377380663900, 1693687857256208900, 1694405136853344400, 1694763956666930100, 1694943426610892600, 1695033181603308900, 1695078065775007200, 1695100510086523300],
  [1692054879805903400, 1697829954715488400, 1700722411436249700, 1702170281646379900, 1702894764558871900, 1703257188748751800, 1703438461787716000, 1703529118630080200, 1703574453827609400, 1703597123685669800],
  [1700478304167314200, 1706311270366916600, 1709232746950163400, 1710695151872946900, 1711426910412813100, 1711792975176043600, 1711976069422233200, 1712067637175225600, 1712113427930448800, 1712136325601493400],
  [1708943370102332300, 1714834807159733700, 1717785594508434300, 1719262679969233700, 1720001787173994900, 1720371529071002600, 1720556462818532900, 1720648950633849000, 1720695201524160800, 1720718329297402500],
  [1717450280534874800, 1723400773808718400, 1726381165738134100, 1727873079024094800, 1728619608664047100, 1728993064622275000, 1729179856348980000, 1729273273470244200, 1729319989119027100, 1729343349306679900],
  [1725999239348184500, 1732009380045666200, 1735019673312447700, 1736526563187133600, 1737280589772692800, 1737657797090283600, 1737846465459559500, 1737940821223248400, 1737988006300333700, 1738011601237846200],
  [1734590451389066600, 1740660836624195300, 1743701330955772200, 1745223347673944700, 1745984946463067800, 1746365942812580800, 1746556506675249100, 1746651810511624100, 1746699469733760800, 1746723301780046000],
  [1743224122472141000, 1749355355324576100, 1752426353448838000, 1753963648771384800, 1754732895777059900, 1755117719209229500, 1755310197605418500, 1755406459039467400, 1755454597170791400, 1755478668708465100],
  [1751900459384103100, 1758093148958579900, 1761194956633852200, 1762747683842863500, 1763524655840680600, 1763913344788209700, 1764107756949253900, 1764204985601643000, 1764253607454154200, 1764277920889772700],
  [1760619669888013300, 1766874431374351900, 1770007357419671600, 1771575671333667800, 1772360445869463000, 1772753039150853700, 1772949404501214900, 1773047610089248500, 1773096720523291500, 1773121278287591200],
  [1769381962727587700, 1775699417461300900, 1778863773786992500, 1780447830776305700, 1781240486173879300, 1781637022997305600, 1781835361156510600, 1781934553495102000, 1781984157419852000, 1782008961967992500],
  [1778187547631516000, 1784568323155016000, 1787764424793573900, 1789364382795879300, 1790164998164796200, 1790565518132011500, 1790765848916609700, 1790866037919262500, 1790916140293213900, 1790941194105025300],
  [1787036635317787400, 1793481365442200800, 1796709530579475800, 1798325549115482600, 1799134204358946600, 1799538747469233300, 1799741090894775500, 1799842286574572300, 1799892892406037100, 1799918197986264700],
  [1795929437498037300, 1802438762365631100, 1805699312372333100, 1807331552561627400, 1808148328384436300, 1808556935038593700, 1808761311321629200, 1808863523792231800, 1808914638139837400, 1808940198018394200],
  [1804866166881906800, 1811440733029134500, 1814733992492642600, 1816382617069693400, 1817207594986273500, 1817620305990645400, 1817826735550739500, 1817929975027399100, 1817981603000595400, 1818007419732814700],
  [1813847037181418500, 1820487497602589700, 1823813794359084200, 1825478967689405600, 1826312230031926700, 1826729086602469600, 1826937590064241700, 1827041866864819700, 1827094013624388100, 1827120089791278100],
  [1822872263115368400, 1829579277326952600, 1832938942493863200, 1834620830590339500, 1835462460516910100, 1835883504283303200, 1836094102478485700, 1836199427024482600, 1836252097783053400, 1836278435991555800],
  [1831942060413733700, 1838716294519297400, 1842109662528076600, 1843808433067451000, 1844658514570397000, 1845083787580192700, 1845296501549707800, 1845402884367305400, 1845456084389877300, 1845482687273128000],
  [1841056645822098300, 1847898772577885700, 1851326181207108900, 1853042003546635500, 1853900621460861000, 1854330166183674800, 1854545017179737400, 1854652468900849600, 1854706203505316400, 1854733073722907900],
  [1850216237106088700, 1857126935987257300, 1860588726396049000, 1862321771590312400, 1863189011601743800, 1863622870933490800, 1863839880421727200, 1863948411785061400, 1864002686342742400, 1864029826580990200],
  [1859421053055830100, 1866401010323335700, 1869897527085134800, 1871647967903036300, 1872523916557151600, 1872962133824321800, 1873181323485912600, 1873290945338042300, 1873345765274220100, 1873373178246430200],
  [1868671313490419700, 1875721222258568900, 1879252813395222600, 1881020824337138200, 1881905569047581500, 1882348188011558800, 1882569579745402500, 1882680303041850600, 1882735673836312200, 1882763362283054400],
  [1877967239262411500, 1885087799567080900, 1888654816583283900, 1890440573898391700, 1891334202955673300, 1891781267817098500, 1892004883741996500, 1892116719548329000, 1892172646735913900, 1892200613425293300],
  [1887309052262318200, 1894500971129851400, 1898103769047925300, 1899907450751705000, 1900810053331990700, 1901261608735167300, 1901487471192032100, 1901600430684963900, 1901656919856116200, 1901685167584051900],
  [1896696975423132900, 1903960966939916900, 1907599904334935800, 1909421690226847200, 1910333356400831800, 1910789447438176800, 1911017578992260300, 1911131673460770600, 1911188730262099400, 1911217261852601700],
  [1906131232724861200, 1913468018107595500, 1917143457142861200, 1918983528824194300, 1919904349566067100, 1920365021782607000, 1920595445225753000, 1920710686072212000, 1920768316207053600, 1920797134512507800],
  [1915612049199072500, 1923022356865730500, 1926734663328602400, 1928593204220510000, 1929523271417008900, 1929988570814916900, 1930221309167836100, 1930337707909145200, 1930395917138133600, 1930425025039585100],
  [1925139650933467000, 1932624216574963400, 1936373759913043400, 1938250955274749600, 1939190361734305600, 1939660334777490400, 1939895411292055400, 1940012979560796500, 1940071773702438700, 1940101174109880700],
  [1934714265076457900, 1942273831729023300, 1946060985086700300, 1947957022033894000, 1948905861495868000, 1949380555114603500, 1949617993276171000, 1949736742821768200, 1949796127753025800, 1949825823605688900],
  [1944336119841769600, 1951971437960042800, 1955796578215401400, 1957711645738812700, 1958670012882823700, 1959149474478427300, 1959389298008182100, 1959509240698073400, 1959569222354950800, 1959599216621598500],
  [1954005444513051800, 1961717272043894800, 1965580779845994000, 1967515068830155100, 1968483059285502800, 1968967336735060300, 1969209569592378400, 1969330717413205700, 1969391301791340200, 1969421597470564600],
  [1963722469448510700, 1971511571905556800, 1975413831712075200, 1977367534954267800, 1978345245309449200, 1978834386970585800, 1979079053355432000, 1979201418414229800, 1979262611569493700, 1979293211690015800],
  [1973487426085556500, 1981354576624491900, 1985295976739750500, 1987269288969147500, 1988256816781465700, 1988750871497169200, 1988997995852503900, 1989121590377917100, 1989183398427020800, 1989214306047992500],
  [1983300546945462800, 1991246526440059400, 1995227459053420300, 1997220576950412000, 1998218020755686600, 1998717037859172500, 1998966644873396900, 1999091481216896300, 1999153910337999500, 1999185128549309300],
  [1993162065638049000, 2001187662756943300, 2005208523981591700, 2007221646197309200, 2008229105519680900, 2008733134839310200, 2008985249448727300, 2009111340085842800, 2009174396519173700, 2009205928441756700],
  [2003072216866370600, 2011178228150607500, 2015239418062721900, 2017272745238752300, 2018290320600585400, 2018799412464830900, 2019054059856132800, 2019181417387703500, 2019245107436179600, 2019276956222327400],
  [2013031236431434500, 2021218466372776700, 2025320389051083200, 2027374123839383800, 2028401916771268300, 2028916122013732900, 2029173327626514500, 2029301964779942000, 2029366294809801000, 2029398463643479500],
  [2023039361236920500, 2031308622356931500, 2035451685922657000, 2037526033005669400, 2038564146056522400, 2039083516021001700, 2039343305550299800, 2039473235180824000, 2039538211622259200, 2039570703719422700],
  [2033096829293929000, 2041448942223839700, 2045633558881059700, 2047728724992022500, 2048777261739291200, 2049301848284893200, 2049564247683751400, 2049695482775726800, 2049761112123531600, 2049793930732448900],
  [2043203879725738400, 2051639673287103200, 2055866259363492000, 2057982453306954800, 2059041518366922900, 2059571373873234900, 2059836409355289000, 2059968963023489600, 2060035251837703000, 2060068400239278800],
  [2053360752772576200, 2061881064058729500, 2066150040046714700, 2068287472719259400, 2069357171757455900, 2069892349129766600, 2070160047171862000, 2070293932662786800, 2070360887569351200, 2070394369077453600],
  [2063567689796417600, 2072173364254731000, 2076485154853056000, 2078644039264227400, 2079724479005936300, 2080265031680505000, 2080535419025341400, 2080670649718534800, 2080738277409957400, 2080772095371752000],
  [2073824933285783900, 2082516824800743700, 2086871858956447800, 2089052410249885400, 2090143698490765300, 2090689680440151400, 2090962784098947700, 2091099373508338800, 2091167680744357700, 2091201838540640600],
  [2084132726860570700, 2092911697837671600, 2097310408788483800, 2099512844263273000, 2100615089880079200, 2101166555618518000, 2101442402873705100, 2101580364648957300, 2101649358257222200, 2101683859302757000],
  [2094491315276890100, 2103358236727358300, 2107801062044514400, 2110025601176743100, 2111138914138162100, 2111695918726997900, 2111974537134946700, 2112113885062816500, 2112183571939566100, 2112218419683425100],
  [2104900944431918300, 2113856696058278200, 2118344077689760700, 2120590942154298500, 2121715433531885000, 2122278032585056600, 2122559449978821600, 2122700197984541500, 2122770585095293800, 2122805783021204500],
  [2115361861368771900, 2124407331651253400, 2128939715965468600, 2131209129657956500, 2132344911637179800, 2132913161326765500, 2133197405818865800, 2133339567967527800, 2133410662347777000, 2133446213974469000],
  [2125874314281396700, 2135010400565197900, 2139588238395076200, 2141880427454141600, 2143027613345549300, 2143601570407363000, 2143888670392583500, 2144032260890548500, 2144104069646465200, 2144139978528022300],
  [2136438552519468200, 2145666161102881500, 2150289907790426700, 2152605100620115700, 2153763804870601500, 2154343526609845100, 2154633510768072400, 2154778543964385700, 2154851074273529800, 2154887343999743000],
  [2147054826593311800, 2156374872816723800, 2161044988257999300, 2163383415550430100, 2164553753754620800, 2165139298051596800, 2165432195350676700, 2165578685738502900, 2165651944850537400, 2165688579047269100],
  [2157723388178842200, 2167136796514606500, 2171853745205168000, 2174215639963424900, 2175397728875172800, 2175989154191048100, 2176284993889679400, 2176432956107748800, 2176506951345167900, 2176543953674706400],
  [2168444490122509300, 2177952194265713700, 2182716445346499600, 2185102042907736400, 2186296000451736200, 2186893365834370300, 2187192177485021600, 2187341626319088800, 2187416365077946800, 2187453739239378300],
  [2179218386446274000, 2188821329406402400, 2193633356710073800, 2196042894768857600, 2197248840052374200, 2197852205142200700, 2198154018594058500, 2198304968978382200, 2198380458729033300, 2198418208458610800],
  [2190045332352583700, 2199744466546084800, 2204604748643828100, 2207038467275717000, 2208256520600430400, 2208865945636401200, 2209170791038348400, 2209323258057182000, 2209399506345023500, 2209437635416538300],
  [2200925584229382200, 2210721871573149300, 2215630891821946300, 2218089033507299300, 2219319316381267100, 2219934862206853500, 2220242770010477100, 2220396768899572400, 2220473783345804600, 2220512295570962200],
  [2211859399655115500, 2221753811660897700, 2226712058251258900, 2229194867899284400, 2230437503049031300, 2231059231118285600, 2231370232080912100, 2231525778229044000, 2231603566531424200, 2231642465760230600],
  [2222847037403773700, 2232840555273509300, 2237848521277693900, 2240356246250735300, 2241611357633452900, 2242239330017131700, 2242553455204898100, 2242710564155397500, 2242789134089015300, 2242828424210156200],
  [2233888757449933800, 2243982372172034300, 2249040555592735800, 2251573445730804500, 2252841158546679900, 2253475437938428200, 2253792718729380400, 2253951406181686100, 2254030765599737400, 2254070450540968600],
  [2244984820973827300, 2255179533420407600, 2260288437239927900, 2262846744885477700, 2264127185590144700, 2264767835312741700, 2265088303399962900, 2265248585211193000, 2265328742045763000, 2265368825774303800],
  [2256135490366417400, 2266432311391489500, 2271592443621408100, 2274176423644354600, 2275469719961468100, 2276116803973134900, 2276440491367909700, 2276602383554439500, 2276683345817297400, 2276723832340226700],
  [2267341029234499300, 2277740979773133200, 2282952853504457600, 2285562763327455600, 2286869044261388400, 2287522627162162200, 2287849566197167100, 2288013084936232300, 2288094860719629700, 2288135754084286500],
  [2278601702405810900, 2289105813574275300, 2294369947028101400, 2297006046652061000, 2298325442500736900, 2298985589538905500, 2299315812871434800, 2299480974502743700, 2299563571980224200, 2299604876274610800],
  [2289917775934164000, 2300527089131054700, 2305844005709722700, 2308506557739592000, 2309839200107439000, 2310505977186039600, 2310839517801264000, 2311006338828630100, 2311089766255846600, 2311131485609037000],
  [2301289517104583700, 2312005084112955500, 2317375312451716400, 2320064582122518300, 2321410603933550200, 2322084077616936200, 2322420968831191900, 2322589465924180200, 2322673731639717900, 2322715870222273100],
  [2312717194438473700, 2323540077528974400, 2328964151548170900, 2331680406751293700, 2333039942262331800, 2333720179782802900, 2334060455246915500, 2334230645242507900, 2334315757668716000, 2334358319693099600],
  [2324201077698794100, 2335132349733818000, 2340610808691581900, 2343354320001336800, 2344727504815356200, 2345414574079857100, 2345758267782494800, 2345930167686772000, 2346016135330608100, 2346059125051604200],
  [2335741437895249300, 2346782182434123700, 2352315570979596700, 2355086611680042300, 2356473582759650400, 2357167552356531900, 2357514698627602600, 2357688325617438100, 2357775157071316800, 2357818578786459100],
  [2347338547289499300, 2358489858694701400, 2364078726921785700, 2366877573033815600, 2368278468714871700, 2368979407920726900, 2369330041434795500, 2369505412859573800, 2369593116802223800, 2369636974852222900],
  [2358992679400386100, 2370255662944813100, 2375900566446453300, 2378727496755155400, 2380142456760523500, 2380850435547086600, 2381204591326835200, 2381381724710183000, 2381470309907514700, 2381514608676693600],
  [2370704109009170600, 2382079880984468600, 2387781380907476400, 2390636676989764000, 2392065842443201200, 2392780931484316500, 2393138644904039400, 2393317557945572000, 2393407033251554900, 2393451777168283700],
  [2382473112164790000, 2393962799990749800, 2399721463091169600, 2402605409343691700, 2404048922783876000, 2404771193462537200, 2405132500251667700, 2405313210828760800, 2405403585186304300, 2405448778723447400],
  [2394299966189133400, 2405904708524163300, 2411721107223189000, 2414633990890513100, 2416091996285214500, 2416821520700676600, 2417186456947351900, 2417368983116922100, 2417460265558770900, 2417505913234130200],
  [2406184949682322800, 2417905896535020800, 2423780608975466400, 2426722720178547100, 2428195362938938200, 2428932213913897400, 2429300816068552700, 2429485176068863400, 2429577375718499300, 2429623482095267000],
  [2418128342528027100, 2429966655369839500, 2435900265473172000, 2438871897238099800, 2440359324233207100, 2441103575321054700, 2441475880200067200, 2441662092452545000, 2441755218525099400, 2441801788212313100],
  [2430130425898771900, 2442087277777775500, 2448080375301712500, 2451081823588752700, 2452584183160057700, 2453335908652203500, 2453711953441556500, 2453900036552633900, 2453994098355805000, 2454041136008810700],
  [2442191482261280600, 2454268057917078600, 2460321238513760500, 2463352802246677800, 2464870244222860800, 2465629519156134300, 2466009341415129600, 2466199314178099000, 2466294321113085700, 2466341831434000600]]

/-- Rows from 800 on. -/
def skRows8 : List (List Nat) := [
  [2454311795381824000, 2466509291361582400, 2472623156636316500, 2475685137731995600, 2477217813443823900, 2477984713607948300, 2478368351272949900, 2478560232669844200, 2478656194232281400, 2478704181970463400],
  [2466491650331589700, 2478811275107209600, 2484986432677801800, 2488079136076160100, 2489627198371531300, 2490401800316669000, 2490789291704888700, 2490983100908370200, 2491080026689280200, 2491128496641804100],
  [2478731333492060900, 2491174307578513500, 2497411371135188700, 2500535104829387300, 2502098708088518700, 2502881089132897000, 2503272472946213000, 2503468229321492400, 2503566129008240300, 2503615086020376400],
  [2491031132560417400, 2503598688635240500, 2509898278001153800, 2513053353068113300, 2514632653218886300, 2515422891456493900, 2515818206785314100, 2516015929892079100, 2516114813269341500, 2516164262235040100],
  [2503391336554950800, 2516084719578925100, 2522447460771276700, 2525634191402492900, 2527229345935945000, 2528027520244314600, 2528426806571469600, 2528626516165840900, 2528726393116583400, 2528776338978963800],
  [2515812235820489100, 2528632703159505300, 2535059228451261900, 2538277931983929100, 2539889099969907800, 2540695290017966200, 2541098587222649700, 2541300303259152400, 2541401183765616000, 2541451631517458700],
  [2528294122033847800, 2541242943581972500, 2547733891564197800, 2550984888512645900, 2552612230615614000, 2553426516871616400, 2553833865233364700, 2554037607866915500, 2554139502011614500, 2554190456695863900],
  [2540837288209289600, 2553915746513042700, 2560471762157851100, 2563755376245291000, 2565399054740291600, 2566221518479836800, 2566632958682539300, 2566838748270465200, 2566941666237192700, 2566993132947456500],
  [2553442028703995700, 2566651419087859600, 2573273153811989200, 2576589712002577300, 2578249890791357700, 2579080614105478800, 2579496187241440800, 2579704044345505900, 2579807996420353300, 2579859980301413300],
  [2566108639223563900, 2579450269916720100, 2586138381645741500, 2589488214176961800, 2591165058804262100, 2592004124607601800, 2592423872181636300, 2592633817570096700, 2592738814142478500, 2592791320390806000],
  [2578837416827513100, 2592312609091831100, 2599067762324988300, 2602451202740361800, 2604144880410358400, 2604992372449425500, 2605416336382997100, 2605628391032672000, 2605734442596365500, 2605787476460638800],
  [2591628659934805500, 2605238748194095800, 2612061614069792600, 2615478999251905300, 2617189678844827400, 2618045681706334400, 2618473904341737000, 2618688089440102600, 2618795206594293500, 2618848773375923600],
  [2604482668329386200, 2618229000299919500, 2625120256661855700, 2628571926865721400, 2630299778954629500, 2631164378073913400, 2631596902178492400, 2631813239125799700, 2631921432576143000, 2631975537629801700],
  [2617399743165733700, 2631283679988053200, 2638244011452015600, 2641730310338769600, 2643475507206497900, 2644348788876030400, 2644785657646447000, 2645004168057853100, 2645113448617541700, 2645168097351696800],
  [2630380186974431900, 2644403103346457700, 2651433201367773100, 2654954476038699900, 2656717191694975700, 2657599243072952500, 2658040500139489700, 2658261205847218000, 2658371584438063100, 2658426782315520700],
  [2643424303667754300, 2657587587979199100, 2664688150920857100, 2668244751951759300, 2670025162150487400, 2670916071269505200, 2671361760700420800, 2671584683755939300, 2671696171409458100, 2671751923947907800],
  [2656532398545256800, 2670837453013369600, 2678009186214819900, 2681601467690726000, 2683399749947450400, 2684299605723272100, 2684749772029191600, 2684974934705413500, 2685087542563935200, 2685143855336498300],
  [2669704778299399500, 2684153019106039600, 2691396634952673300, 2695024954502895900, 2696841288112429500, 2697750180352837800, 2698204868491191300, 2698432293284698400, 2698546032602472800, 2698602911238264100],
  [2682941751021171400, 2697534608451234800, 2704850826444552500, 2708515545278090800, 2710350111332330300, 2711268130746066100, 2711727386125570500, 2711957095758857100, 2712071977903184600, 2712129428087870900],
  [2696243626205736600, 2710982544786948000, 2718372091615421600, 2722073574556719700, 2723926555962628600, 2724853794168423000, 2725317662653611300, 2725549680077353200, 2725665716529712200, 2725723744006082600],
  [2709610714758095000, 2724497153402164900, 2731960763012806000, 2735699378537869300, 2737570960035646800, 2738507509571340300, 2738976037487132500, 2739210385882478900, 2739327588239678500, 2739386198808216800],
  [2723043328998751100, 2738078761143934900, 2745617174814571800, 2749393295087435100, 2751283663268865400, 2752229617600623100, 2752702851736945000, 2752939554517827700, 2753057934493163100, 2753117134012628500],
  [2736541782669409200, 2751727696424460500, 2759341662836727100, 2763155663746295600, 2765065007073280900, 2766020460604891600, 2766498448221339900, 2766737529036815200, 2766857098461238500, 2766916892849248000],
  [2750106390938673400, 2765444289228218300, 2773134564541271400, 2776986825738518300, 2778915334561794400, 2779880382644072400, 2780363171474628000, 2780604654211231100, 2780725425034532700, 2780785820268157700],
  [2763737470407770900, 2779228871119104300, 2786996219044070600, 2790887123979617100, 2792834990557656400, 2793809729497930300, 2794297367755713700, 2794541276539849000, 2794663260831848500, 2794724262948208100],
  [2777435339116278400, 2793081775247618500, 2800926967122774200, 2804856903084830500, 2806824321602940800, 2807808848674639900, 2808301385056719600, 2808547744257062900, 2808670954208819700, 2808732569305682900],
  [2791200316547877100, 2807003336358063100, 2814927151224765000, 2818896509377461200, 2820883675967060700, 2821878089419399300, 2822375573111647300, 2822624407341579400, 2822748855266604900, 2822811089503003700],
  [2805032723636114000, 2820993890795782600, 2828997115475149600, 2833006290897237600, 2835013403655335700, 2836017802723090800, 2836520283405085800, 2836771617525150500, 2836897315860640300, 2836960175457482700],
  [2818932882770173500, 2835053776514424500, 2843137205684773400, 2847186597408722100, 2849213856417593700, 2850228341330982800, 2850735869180958600, 2850989728301341100, 2851116689609417600, 2851180180850108800],
  [2832901117800678100, 2849183333083234100, 2857347769358290700, 2861437780409767300, 2863485387756813000, 2864510059751469200, 2865022685451322100, 2865279094934356900, 2865407331903320700, 2865471461134391200],
  [2846937754045487800, 2863382901694377400, 2871629155702256300, 2875760193139998600, 2877828352937813800, 2878863314264860000, 2879381089005200600, 2879640074467898100, 2879769599913500300, 2879834373545240300],
  [2861043118295523300, 2877652825170286300, 2885981715633255900, 2890154190589344500, 2892243108995984600, 2893288462932214600, 2893811438417465600, 2894073025734076800, 2894203852600791800, 2894269277107891800],
  [2875217538820601200, 2891993447971045900, 2900405801786080200, 2904620129506610000, 2906730014746060000, 2907785865604212000, 2908314094057768000, 2908578309362358000, 2908710450724682100, 2908776532646879800],
  [2889461345375281600, 2906405116201796800, 2914901768521928900, 2919158368408085100, 2921289430790930800, 2922355883930070800, 2922889418099501800, 2923156287788560900, 2923289756852316400, 2923356502795048400],
  [2903774869204732500, 2920888177620178500, 2929469971936656700, 2933769267586201600, 2935921719530507400, 2936998881366516400, 2937537774528823500, 2937807325263901900, 2937942135367552500, 2938009552002618600],
  [2918158443050605400, 2935442981643793100, 2944110769869051500, 2948453189118221300, 2950627245170620300, 2951715223186780400, 2952259529153709600, 2952531787864077800, 2952667952480065300, 2952736046546289500],
  [2932612401156927800, 2950069879357706100, 2958824521909156600, 2963210496874978200, 2965406373731968400, 2966505276489661400, 2967055049613065100, 2967330043498398700, 2967467576234485600, 2967536354538391500],
  [2947137079276008300, 2964769223521970800, 2973611589406624300, 2978041556529649000, 2980259473059104300, 2981369410208612900, 2981924705385869000, 2982202461918966400, 2982341376519595300, 2982410845936086800],
  [2961732814674356100, 2979541368579185400, 2988472335479108700, 2992946735566575800, 2995186912829473000, 2996307995120892900, 2996868867800375600, 2997149414729895600, 2997289725077561100, 2997359892550610000],
  [2976399946138610000, 2994386670662076600, 3003407125020702200, 3007926403290127600, 3010189064562484200, 3011321403856747500, 3011887910043351400, 3012171275396585000, 3012312995513221400, 3012383868056559300],
  [2991138813981489400, 3009305487601122100, 3018416324710399100, 3022980930833600900, 3025266301628643000, 3026410010908641400, 3026982207169369900, 3027268419255034400, 3027411563303413300, 3027483148001233700],
  [3005949760047752500, 3024298178932183200, 3033500303020609600, 3038110691168170100, 3040418999258707500, 3041574192640541600, 3042152136110138600, 3042441223521203200, 3042585805806350500, 3042658109814014800],
  [3020833127720167500, 3039365105904194700, 3048659430225698800, 3053316059111869400, 3055647534552908300, 3056814327297235900, 3057398075683883400, 3057690067300423100, 3057836102271046200, 3057909132815798900],
  [3035789261925502200, 3054506631486859100, 3063894078410578100, 3068597411338630400, 3070952286490199200, 3072130795013709100, 3072720406604776500, 3073015331596852500, 3073162833846782400, 3073236598228475000],
  [3050818509140522100, 3069723120378383800, 3079204621479323600, 3083955126387351300, 3086333635937564500, 3087523977824554000, 3088119511492409000, 3088417399322980500, 3088566383592629100, 3088640889184448400],
  [3065921217398006400, 3085014939013252600, 3094591435163841900, 3099389584671018800, 3101791965659364100, 3102994259673440300, 3103595774881316500, 3103896655309177200, 3104047136487010000, 3104122390736213300],
  [3081097736292772500, 3100382455570011000, 3110054897032567300, 3114901168485866100, 3117327660326726900, 3118542026422622100, 3119149583230541900, 3119453486313291600, 3119605479437315100, 3119681489865975500],
  [3096348416987713100, 3115826039979098100, 3125595386499203000, 3130490262020576300, 3132941106526988800, 3134167665862493800, 3134781324933257900, 3135088281030301700, 3135241801289561200, 3135318575495320000],
  [3111673612219853100, 3131346063930700300, 3141213284831502900, 3146157251365535700, 3148632692773181400, 3149871567721199300, 3150491390326428400, 3150801430102004700, 3150956492838105300, 3151034038494928200],
  [3127073676306411700, 3146942900882637400, 3156908975160083300, 3161902524522119600, 3164402809513561400, 3165654123674279500, 3166280171700523600, 3166593326126763700, 3166749946835398700, 3166828271694344100],
  [3142548965150883900, 3162616926068277700, 3172682842487290900, 3177726471412034000, 3180251849141189000, 3181515727354376600, 3182148063309278500, 3182464363669296800, 3182622558001797500, 3182701669891792700],
  [3158099836249126100, 3178368516504485000, 3188535273696089800, 3193629483886694900, 3196180206003553500, 3197456774360978100, 3198095461379506400, 3198414939270520000, 3198574723035417200, 3198654629864035500],
  [3173726648695461900, 3194198050999597900, 3204466657559005500, 3209611955736651500, 3212188276412244600, 3213477662270217600, 3214122764120954300, 3214445451457438100, 3214606840622039900, 3214687550376294800],
  [3189429763188797500, 3210105910161433600, 3220477384747100700, 3225674282701059600, 3228276458652674000, 3229578790644715400, 3230230371736211400, 3230556300753079900, 3230719311445066700, 3230800832192210400],
  [3205209542038751700, 3226092476405328700, 3236567847838994400, 3241816862477194500, 3244445152993838000, 3245760561043473700, 3246418686430668900, 3246747889686491900, 3246912538195526600, 3246994878083851700],
  [3221066349171789000, 3242158133962207800, 3252738441329912500, 3258040094730012300, 3260694761698135700, 3262023377031819100, 3262688112422521900, 3263020622802774400, 3263186925582128700, 3263270092841784600],
  [3237000550137381300, 3258303268886682600, 3268989561640798900, 3274344381101758000, 3277025689031230800, 3278367644191396300, 3279039055952831900, 3279374906673173400, 3279542880341369600, 3279626883285185300],
  [3253012512114162300, 3274528269065181200, 3285321607127439800, 3290730125221610400, 3293438341271961700, 3294793770130203800, 3295471925295626900, 3295811149905215900, 3295980811247688400, 3296065658272001100],
  [3269102603916111900, 3290833524224113300, 3301734978089653700, 3307197732715387900, 3309933126722296900, 3311302164492690600, 3311987130768065400, 3312329763152903900, 3312501129123672500, 3312586828709169600],
  [3285271195998736100, 3307219425938057100, 3318230076780507400, 3323747611215284700, 3326510455717351400, 3327893238969892700, 3328585084740635700, 3328931159126954100, 3329104246850317800, 3329190807562879100],
  [3301518660465273000, 3323686367637986600, 3334807307415579100, 3340380170369662800, 3343170740635434000, 3344567407309627100, 3345266201647424800, 3345615752605090400, 3345790579377338200, 3345878009868895700],
  [3317845371072899700, 3340234744619524500, 3351467076182257900, 3357095821852887900, 3359914395908155100, 3361325085326729300, 3362030897996417000, 3362383960442387600, 3362560543733523200, 3362648852742924200],
  [3334251703238953100, 3356864954051225800, 3368209791249091900, 3373894979375213400, 3376741838030586300, 3378166690913348400, 3378879592379863900, 3379236201581667500, 3379414559037154100, 3379503755391032600],
  [3350738034047166800, 3373577394982896600, 3385035862775170500, 3390778058692705300, 3393653485571457100, 3395092644049288500, 3395812705484688700, 3396172897063943800, 3396353046506466200, 3396443139120126300],
  [3367304742253913500, 3390372468353940700, 3401945702919553300, 3407745477617222500, 3410649759183415800, 3412103366812403500, 3412830660102957000, 3413194470038924500, 3413376429470169100, 3413467427348475500],
  [3383952208294458500, 3407250577001736900, 3418939725850736900, 3424797656026438300, 3427731081613326600, 3429199283389040900, 3429933881142389100, 3430301345775562400, 3430485133378012200, 3430577045616288700],
  [3400680814289229900, 3424212125670053200, 3436018347756169700, 3441935015873912100, 3444897877712632800, 3446380820084540000, 3447122795636932600, 3447493951672659800, 3447679585811411500, 3447772421596350300],
  [3417490944050092000, 3441257521017483600, 3453181986851801300, 3459157981199209600, 3462150574447751300, 3463648405333781500, 3464397832757377500, 3464772717269527300, 3464960216494123800, 3465053985104704000],
  [3434382983086632600, 3458387171625923800, 3470431063391678100, 3476466978138062400, 3479489600910535800, 3481002469711783800, 3481759423822037400, 3482138074256692900, 3482327457302976600, 3482422168111387400],
  [3451357318612462800, 3475601488009076300, 3487765999677582800, 3493862434932594200, 3496915388328779500, 3498443445944364700, 3499208002307472100, 3499590456486667400, 3499781742278647800, 3499877404751230100],
  [3468414339551521400, 3492900882620980800, 3505187220068713600, 3511344781941571400, 3514428370076773000, 3515971768918839700, 3516744003859269300, 3517130299984762500, 3517323507636506800, 3517420131334695100],
  [3485554436544398400, 3510285769864590200, 3522695150991408800, 3528914451650723900, 3532028981685915300, 3533587875694785700, 3534367866302880600, 3534758042959963500, 3534953191777506600, 3535050786358783300],
  [3502778001954656300, 3527756566100364000, 3540290220948909500, 3546571878683099500, 3549717660855372100, 3551292205514851800, 3552080029654507600, 3552474125815854600, 3552671235299124700, 3552769810517987300],
  [3520085429875172800, 3545313689654896100, 3557972860531172300, 3564317499809476400, 3567494847462788400, 3569085199815620300, 3569880936132046100, 3570278991161600800, 3570478081006364100, 3570577646715299500],
  [3537477116134485100, 3562957560829588300, 3575743502424721300, 3582151753958819000, 3585360983575056100, 3586967302238536600, 3587771030166083200, 3588173083822984200, 3588374173922815000, 3588474740073281200],
  [3554953458303149400, 3580688601909332100, 3593602581422538600, 3600075082228785700, 3603316513459128600, 3604938958640874000, 3605750758410946000, 3606156850853494500, 3606359961301757800, 3606461537945180200],
  [3572514855700100800, 3598507237171242200, 3611550534434012100, 3618087927896288300, 3621361883592891600, 3623000617106760100, 3623820569755811800, 3624230741545475200, 3624435892637333000, 3624538489926107100],
  [3590161709399038300, 3616413892893410900, 3629587800494913100, 3636190736428095200, 3639497542676082700, 3641152727958266100, 3641980915335870400, 3642395207441325100, 3642602419675765900, 3642706047864271500],
  [3607894422234799600, 3634408997363701200, 3647714820777420200, 3654383955491493400, 3657723941641274400, 3659395743766539000, 3660232248543536300, 3660650702344759300, 3660859996426638500, 3660964665872264500],
  [3625713398809761300, 3652492980888564600, 3665932038600200100, 3672668034964988400, 3676041533664896200, 3677730119362990600, 3678575025039728400, 3678997682332120700, 3679209079174232000, 3679314800338410900],
  [3643619045500232300, 3670666275801899100, 3684239899438512600, 3691043426949071800, 3694450774178323200, 3696156311850550500, 3697009702765197000, 3697436605763750500, 3697650126488911600, 3697756909938163800],
  [3661611770462872700, 3688929316473927400, 3702638850934375800, 3709510585777021600, 3712952120879008500, 3714674780614964900, 3715536741951907700, 3715967933295419000, 3716183599238580300, 3716291455645569100],
  [3679691983641104900, 3707282539320125100, 3721129342906767300, 3728069968025761600, 3731546033741674900, 3733285987336156200, 3734156605134485700, 3734592127889806500, 3734809960600180500, 3734918900744779400],
  [3697860096771545500, 3725726382810164600, 3739711827361874100, 3746722032526777400, 3750232975029565800, 3751990395999634700, 3752869757161716400, 3753309654828048400, 3753529676071261300, 3753639710841629500],
  [3716116523390433600, 3744261287476894300, 3758386758503387500, 3765467240377073900, 3769013409305738100, 3770788472907976000, 3771676665208099800, 3772120981721331700, 3772343213481595700, 3772454353875267400],
  [3734461678840078000, 3762887695925358500, 3777154592742836600, 3784306054950190500, 3787887803444421000, 3789680686692339800, 3790577798785465600, 3791026578522556500, 3791251043004862900, 3791363300129842700],
  [3752895980275303700, 3781606052841841900, 3796015788709977300, 3803238941907264400, 3806856626642424500, 3808667508324061600, 3809573629754644400, 3810026917538047500, 3810253637170385900, 3810367022246259800],
  [3771419846669910200, 3800416805002948900, 3814970807263218900, 3822266369208148800, 3825920350430610800, 3827749411126290600, 3828664632337198100, 3829122473439332800, 3829351470874927100, 3829465995233985300],
  [3790033698823133000, 3819320401284709600, 3834020111500097000, 3841388807122583400, 3845079448685406000, 3846926870785687600, 3847851283127209400, 3848313723274972400, 3848545021394543300, 3848660696482908100],
  [3808737959366116500, 3838317292671732700, 3853164166767795800, 3860606728241415000, 3864334397640386400, 3866200365364185300, 3867134061103127300, 3867601146482454200, 3867834768396501900, 3867951605775273400],
  [3827533052768391800, 3857407932266373200, 3872403440673714900, 3879920607487871900, 3883685675897908400, 3885570375310802900, 3886513447639671300, 3886985224900143600, 3887221193951256700, 3887339205297665700],
  [3846419405344359400, 3876592775297942900, 3891738403096075200, 3899330922128892200, 3903133764440798500, 3905037383473513900, 3905989926519800900, 3906466442779295800, 3906704782544476700, 3906823979653054200],
  [3865397445259777400, 3895872279131951400, 3911169526194586100, 3918838151786504400, 3922679146644099700, 3924601875111183800, 3925563983946737400, 3926045286796122800, 3926286021089150600, 3926406415872900700],
  [3884467602538264000, 3915246903279379900, 3930697284421136300, 3938442778449261100, 3942322308286878500, 3944264337905559700, 3945236108556044800, 3945722246063936200, 3945965398937727500, 3946087003429322000],
  [3903630309067794300, 3934717109405987600, 3950322154530562900, 3958145286483732300, 3962063737564084500, 3964025261973314100, 3965006791427784500, 3965497812145323300, 3965743407894347500, 3965866234247327400],
  [3922885998607210000, 3954283361341643500, 3970044615591430100, 3977946162646030800, 3981903925098468500, 3983885139878166700, 3984876526098708900, 3985372479064414900, 3985620542227111800, 3985744602717095200],
  [3942235106792731400, 3973946125089705000, 3989865148996884700, 3997845896093430200, 4001843363952559600, 4003844466643036200, 4004845808574533600, 4005346743319187400, 4005597298680419400, 4005722605706333800],
  [3961678071144480700, 3993705868836414400, 4009784238475542900, 4017844978395998300, 4021882549640700200, 4023903739762284100, 4024915137342263900, 4025421103893847900, 4025674176487371500, 4025800742572689500],
  [3981215331072998600, 4013563062960345600, 4029802370102427700, 4037943903548307800, 4042021980141140800, 4044063459213998900, 4045085013382579200, 4045596062271266500, 4045851677382228900, 4045979515176221000],
  [4000847327885777600, 4033518180041852800, 4049920032309957900, 4058143167981197700, 4062262155908187000, 4064324127472341100, 4065355940182282400, 4065872122445472100, 4066130305612944100, 4066259427891937200]]

/-- Rows from 900 on. -/
def skRows9 : List (List Nat) := [
  [4020574504793792600, 4053571694872595800, 4070137715898979600, 4078443270573583700, 4082603579884420600, 4084686249519963400, 4085728423746818300, 4086249790934229700, 4086510567953740300, 4086640987622399600],
  [4040397306918037300, 4073724084465052100, 4090455914049837300, 4098844712664331100, 4103046757512956000, 4105150332860472800, 4106202972612836400, 4106729576791642200, 4106992973717765600, 4107124703810377400],
  [4060316181296067100, 4093975828062097800, 4110875122333520000, 4119347998064176200, 4123592196749781100, 4125716887530973000, 4126780097860838400, 4127311991620858200, 4127578034769806600, 4127711088451588100],
  [4080331576888546000, 4114327407146603000, 4131395838722819000, 4139953633067714600, 4144240408076138400, 4146386426114652400, 4147460313127866000, 4147997549586812300, 4148266265539066700, 4148400656107468700],
  [4100443944585783300, 4134779305451056700, 4152018563603566100, 4160662126465430000, 4164991904510983300, 4167159463753446400, 4168244134620273000, 4168786767429042000, 4169058183031999100, 4169193923918047000],
  [4120653737214304500, 4155332008967244800, 4172743799785896000, 4181473989555790400, 4185847201623482200, 4188036518160755600, 4189132081126543800, 4189680164474568000, 4189954306845223800, 4190091411614849800],
  [4140961409543386500, 4175986005955932400, 4193572052515570500, 4202389736157404100, 4206806817545591600, 4209018109634226300, 4210124674030185800, 4210678262650830600, 4210955159178490400, 4211093641533892800],
  [4161367418291627900, 4196741786956607900, 4214503829485355100, 4223409882621217400, 4227871272984690600, 4230104761068602400, 4231222437322683900, 4231781586498712000, 4232061264847712000, 4232201138628721900],
  [4181872222133503100, 4217599844797234600, 4235539640846417600, 4244534947842779400, 4249041091236266200, 4251296997968624300, 4252425897616510400, 4252990663185588800, 4253273151298069700, 4253414430483533000],
  [4202476281705924300, 4238560674604057200, 4256679999219814700, 4265765453274569300, 4270316798196667300, 4272595348462007200, 4273735584158219100, 4274306022518483000, 4274591348617171000, 4274734047326343900],
  [4223180059614807900, 4259624773811419500, 4277925419708002900, 4287101922938370500, 4291698922375927400, 4294000343312481800, 4295152028841583600, 4295728196957265100, 4296016389548289200, 4296160522042249100],
  [4243984020441638100, 4280792642171632100, 4299276419906395600, 4308544883437701600, 4313187994910638700, 4315512515932886300, 4316675766220818400, 4317257721627916000, 4317548809503653400, 4317694390186724500],
  [4264888630750033500, 4302064781764867700, 4320733519914983700, 4330094863970318500, 4334784549576887000, 4337132402398333000, 4338307333523847000, 4338895134335870300, 4339189146577820400, 4339336189999006200],
  [4285894359092316800, 4323441697009085800, 4342297242350005700, 4351752396340761000, 4356489122803264800, 4358860541459446700, 4360047270665651100, 4360640975579409600, 4360937941561096100, 4361086462415540000],
  [4307001676016085500, 4344923894669988800, 4363968112355644900, 4373518014972968000, 4378302253683926000, 4380697474555648500, 4381896120261689200, 4382495788563140300, 4382795737953036400, 4382945751083487100],
  [4328211054070772400, 4366511883871025900, 4385746657615814500, 4395392256922940100, 4400224483991717700, 4402643745828522600, 4403854427641359400, 4404460119211521500, 4404763081976022200, 4404914602374310400],
  [4349522967814223500, 4388206176103406600, 4407633408365948900, 4417375661891472500, 4422256358191377900, 4424699902135242200, 4425922740861552300, 4426534516182474600, 4426840522588878000, 4426993565397417800],
  [4370937893819269600, 4410007285236165900, 4429628897404889700, 4439468772236945600, 4444398423452787200, 4446866493062061500, 4448101610720266300, 4448719530881053800, 4449028611500580900, 4449183192013884600],
  [4392456310680282200, 4431915727526253500, 4451733660106780300, 4461672132988156800, 4466651229664283600, 4469144070937874900, 4470391590770275400, 4471015717473184200, 4471327903184030800, 4471484036850229900],
  [4414078699019759700, 4453932021628658800, 4473948234433046100, 4483986291857249900, 4489015329446055400, 4491533190847843400, 4492793237332888700, 4493423632899464500, 4493738954889887400, 4493896657312280800],
  [4435805541494875100, 4476056688606570200, 4496273160944398700, 4506411799252658900, 4511491278163588800, 4514034410647084100, 4515307109511754400, 4515943836889057700, 4516262326660482600, 4516421613599089600],
  [4457637322804060800, 4498290251941557300, 4518708982812912400, 4528949208292150900, 4534079633941178100, 4536648290974431100, 4537933769206757400, 4538576891973626800, 4538898581343788600, 4539059468716923600],
  [4479574529693560800, 4520633237543803700, 4541256245834131300, 4551599074815902500, 4556780957675505600, 4559375395266274600, 4560673781127957800, 4561323363501352200, 4561648284607473600, 4561810788493343000],
  [4501617650963996500, 4543086173762355200, 4563915498439248200, 4574361957399657700, 4579595813049291600, 4582216289770438600, 4583527712809624300, 4584183819651022800, 4584512004953019600, 4584676141591317900],
  [4523767177476923500, 4565649591395407200, 4586687291707317000, 4597238417367926700, 4602524766544996100, 4605171543560156000, 4606496134624321100, 4607158831446186300, 4607490313729907200, 4607656099523440600],
  [4546023602161393400, 4588324023700633900, 4609572179377525100, 4620229018807260400, 4625568387458607800, 4628241728548100300, 4629579619797071300, 4630248972769378100, 4630583785149876300, 4630751236666202100],
  [4568387420020509800, 4611110006405536600, 4632570717861525300, 4643334328579582600, 4648727247913475400, 4651427419500492100, 4652778744419590000, 4653454820376419200, 4653792996301254500, 4653962130274337500],
  [4590859128137974300, 4634008077717826300, 4655683466255795100, 4666554916335582800, 4672001922874227800, 4674729194051260200, 4676094087464587200, 4676776953910789400, 4677118527163365100, 4677289360495245000],
  [4613439225684630300, 4657018778335856500, 4678910986354081400, 4689891354528170600, 4695392990160744700, 4698147632716292300, 4699526230800140200, 4700215955918062400, 4700560960620995400, 4700733510383476300],
  [4636128213925014600, 4680142651459055100, 4702253842659864600, 4713344218425993000, 4718901030462202400, 4721683318907740400, 4723075759204139800, 4723772411860417500, 4724120882478949300, 4724295165915300500],
  [4658926596223895600, 4703380242798427300, 4725712602398899800, 4736914086127014400, 4742526627351192200, 4745336838948406600, 4746743260378810800, 4747446910131232300, 4747798881476658300, 4747974916003342000],
  [4681834878052793800, 4726732100587066400, 4749287835531796100, 4760601538572158800, 4766270367297893900, 4769108782086193800, 4770529324965295900, 4771240042069735200, 4771595549302883600, 4771773352511290100],
  [4704853566996535800, 4750198775590701700, 4772980114766660200, 4784407159559022300, 4790132839684330600, 4792999740508630200, 4794434546558324000, 4795152401975738700, 4795511480610477300, 4795691070268681900],
  [4727983172759750800, 4773780821118286200, 4796790015571775200, 4808331535755629900, 4814114636818681500, 4817010309357460700, 4818459521720937000, 4819184587124442600, 4819547273031219600, 4819728667085757800],
  [4751224207173404400, 4797478793032605700, 4820718116188353100, 4832375256714277300, 4838216353949671000, 4841141086743321100, 4842604849999302200, 4843337197781315300, 4843703527190742000, 4843886743768397900],
  [4774577184201302100, 4821293249760933200, 4844764997643322700, 4856538914885429200, 4862438589281025200, 4865392673760468100, 4866871133937595400, 4867610837217042700, 4867980846723504700, 4868165904133127600],
  [4798042619946601600, 4845224752305704200, 4868931243762187500, 4880823105631670400, 4886781943985995900, 4889765674501596800, 4891258979092954200, 4892006111722559100, 4892379838287868500, 4892566755022191600],
  [4821621032658301300, 4869273864255232000, 4893217441181917400, 4905228427241737000, 4911247022221959200, 4914260696072720500, 4915768994050500800, 4916523630624148300, 4916901111581228200, 4917089906318725300],
  [4845312942737736900, 4893441151794453900, 4917624179363918500, 4929755480944609700, 4935834431145077200, 4938878348608134400, 4940401790438460000, 4941164006298621000, 4941545279355236300, 4941735970961976700],
  [4869118872745056300, 4917727183715709500, 4942152050607029000, 4954404870923660400, 4960544780925041500, 4963619245285439400, 4965157982943323500, 4965927854188564700, 4966312957431076800, 4966505564962617900],
  [4893039347405702400, 4942132531429545500, 4966801650060591100, 4979177204330879000, 4985378684759870700, 4988484002340648100, 4990038189325113300, 4990815792817683900, 4991204764714854800, 4991399307418135700],
  [4917074893616869300, 4966657768975570000, 4991573575737571300, 5004073091301152800, 5010336758890797200, 5013473239083368600, 5015043030432712200, 5015828443806194000, 5016221323213021000, 5016417820528290700],
  [4941226040453966500, 4991303473033311200, 5016468428527727700, 5029093144966623900, 5035419622617213200, 5038587577912051300, 5040173130219260100, 5040966431886310600, 5041363258047903500, 5041561729610660900],
  [4965493319177058600, 5016070222933139000, 5041486812210836300, 5054237981471098500, 5060627898311700000, 5063827644329325000, 5065429115757648900, 5066230384917806500, 5066631197473303600, 5066831663116253700],
  [4989877263237301100, 5040958600667196400, 5066629333469976000, 5079508219984539200, 5085962211435111900, 5089194066957387600, 5090811617256071600, 5091620933903653000, 5092025772890171200, 5092228252645212800],
  [5014378408283373100, 5065969190900373700, 5091896601904863900, 5104904482717603300, 5111423190551750100, 5114687477553498200, 5116321268073667500, 5117138713005730200, 5117547618862364200, 5117752132962579900],
  [5038997292167890500, 5091102580981311800, 5117289230045249900, 5130427394936272800, 5137011467344600900, 5140308511025531500, 5141958704736232300, 5142784359560628700, 5143197373132481000, 5143403942014162400],
  [5063734454953803200, 5116359360953439900, 5142807833364355100, 5156077584976531000, 5162727676630651400, 5166057805447600100, 5167724566952006500, 5168558514095512000, 5168975676637768500, 5169184320942459500],
  [5088590438920795100, 5141740123566035600, 5168453030292375300, 5181855684259108500, 5188572456376272500, 5191936002075769500, 5193619497627549400, 5194461820344077400, 5194883173526121400, 5195093914102674200],
  [5113565788571660700, 5167245464285338500, 5194225442230048000, 5207762327304312500, 5214546447712683400, 5217943745363844500, 5219644142883692600, 5220494925262584400, 5220920511172152800, 5221133369078811100],
  [5138661050638673000, 5192875981305663900, 5220125693562251800, 5233798151746908000, 5240650294951479400, 5244081682979230700, 5245799152071560800, 5246658479045963900, 5247088340193349600, 5247303336699847700],
  [5163876774089933200, 5218632275560581300, 5246154411671684000, 5259963798351072200, 5266884645600255000, 5270350465818873100, 5272085177788686700, 5272953135144009200, 5273387314466295900, 5273604471055990500],
  [5189213510135721700, 5244514950734103900, 5272312226952576900, 5286259911025417200, 5293250150378272500, 5296750748025278200, 5298502875895188000, 5299379550277657500, 5299818091143006700, 5300037429515009100],
  [5214671812234813800, 5270524613271910200, 5298599772824486900, 5312687136838087700, 5319747463232237800, 5323283187002610300, 5325052905530050500, 5325938384455333600, 5326381330667304100, 5326602872738657100],
  [5240252236100796000, 5296661872392612400, 5325017685746121800, 5339246126031916400, 5346377241352120000, 5349948443432869600, 5351735929127460600, 5352630300989386800, 5353077696791309900, 5353301464699171100],
  [5265955339708365700, 5322927340099037300, 5351566605229242000, 5365937532039655700, 5373140145187076100, 5376747181292150000, 5378552612433249900, 5379455966512611300, 5379907856592003700, 5380133872695855300],
  [5291781683299603300, 5349321631189551800, 5378247173852605100, 5392762011499280400, 5400036838461431800, 5403680067866966500, 5405503624521399700, 5406416050994845300, 5406872480487857900, 5407100767371739700],
  [5317731829390248300, 5375845363269415200, 5405060037275971100, 5419720224269352500, 5427067988190748700, 5430747773770680900, 5432589637810625300, 5433511227759649900, 5433972242255578000, 5434202822730340400],
  [5343806342775940000, 5402499156762159500, 5432005844254171100, 5446812833444466700, 5454234264697962800, 5457950972959993400, 5459811328081069400, 5460742173501074800, 5461207819046902400, 5461440716152487700],
  [5370005790538452200, 5429283634921016000, 5459085246651221800, 5474040505370761200, 5481536341629607800, 5485290342751525400, 5487169374491050200, 5488109568300513100, 5488579891405505300, 5488815128413241200],
  [5396330742051903800, 5456199423840344000, 5486298899454498400, 5501403909661490400, 5508974895972102700, 5512766563838464300, 5514664459593897500, 5515614095643627000, 5516089143283965500, 5516326743698893500],
  [5422781768988963400, 5483247152467121500, 5513647460788986800, 5528903719212691100, 5536550608068147400, 5540380320307323300, 5542297269354888900, 5543256442437367000, 5543736262060843100, 5543976249624060900],
  [5449359445327012200, 5510427452612448400, 5541131591931550100, 5556540610218893200, 5564264161633147200, 5568132299654747100, 5570068493168253700, 5571037299027080000, 5571521938557815100, 5571764337248852000],
  [5476064347354313800, 5537740958963087100, 5568751957325300900, 5584315262188922800, 5592116243771766100, 5596023192804429000, 5597978823874258700, 5598957359213686500, 5599446867056923800, 5599691701096125100],
  [5502897053676143900, 5565188309093028500, 5596509224593993100, 5612228357961769100, 5620107544994529600, 5624053694124089300, 5626028957776398100, 5627017320270964000, 5627511745317885500, 5627759039168838700],
  [5529858145220916400, 5592770143475099400, 5624404064556499400, 5640280583722518400, 5648238759234518900, 5652224501442554100, 5654219594658646400, 5655217882962899600, 5655717274595505400, 5655967052967479800],
  [5556948205246266100, 5620487105492585600, 5652437151241317800, 5668472629018368600, 5676510583864135900, 5680536316066902600, 5682551437802815800, 5683559751561134900, 5684064159657171100, 5684316447507581400],
  [5584167819345139600, 5648339841450895600, 5680609161901171800, 5696805186774717300, 5704923719711957300, 5708989842799707900, 5711025194005976000, 5712043633862505000, 5712553108800433500, 5712807931337331300],
  [5611517575451843200, 5676329000589259500, 5708920777027638600, 5725278953311318200, 5733478871079669500, 5737585789956369300, 5739641573597997400, 5740670241206654300, 5741184833870679000, 5741442216555274000],
  [5638998063848062400, 5704455235092441800, 5737372680365850600, 5753894628358508300, 5762176745759073300, 5766324869382505800, 5768401290459134400, 5769440288493744300, 5769960050278881900, 5770220018828079200],
  [5666609877168885700, 5732719200102493400, 5765965558929251500, 5782652915073511000, 5791018055049185000, 5795207796471458400, 5797305062037736900, 5798354494202249800, 5798879477019461100, 5799142057408425400],
  [5694353610408777400, 5761121553730540700, 5794700103014413700, 5811554520056829200, 5820003513773405600, 5824235290181866900, 5826353609368028500, 5827413580406849400, 5827943836688206100, 5828209055152961200],
  [5722229860927538100, 5789662957068589400, 5823577006215915700, 5840600153368675900, 5849133840296783800, 5853408073055335300, 5855547657087971700, 5856618272796388000, 5857153855500312400, 5857421738540354500],
  [5750239228456246800, 5818344074201376400, 5852596965441267600, 5869790528545518700, 5878409756543350800, 5882726871234184200, 5884887933457232600, 5885969300691952700, 5886510263308488000, 5886780837689431200],
  [5778382315103150500, 5847165572218224700, 5881760680925910900, 5899126362616677300, 5907831988013543000, 5912192414479284400, 5914375170375229900, 5915467397065014300, 5916013793621166500, 5916287086377418300],
  [5806659725359570600, 5876128121224966300, 5911068856248273000, 5928608376120996500, 5937401263801717600, 5941805436187991600, 5944010103399272200, 5945113298555686400, 5945665183620804500, 5945941222058258700],
  [5835072066105733900, 5905232394355846400, 5940522198344875400, 5958237293123606000, 5967118316613728700, 5971566673412149200, 5973793471762775400, 5974907745491044600, 5975465174182267700, 5975743985881032600],
  [5863619946616619800, 5934479067785505800, 5970121417525503900, 5988013841232738300, 5996983882784610200, 6001476866876198800, 6003726018393595700, 6004851481903560700, 6005414509891312000, 6005696122708461900],
  [5892303978567747400, 5963868820740956700, 5999867227488446400, 6017938751616651300, 6026998702296325700, 6031536760995369700, 6033808489932432200, 6034945255549628200, 6035513939063160700, 6035798381135517400],
  [5921124776040951000, 5993402335513596200, 6029760345335779400, 6048012759020583500, 6057163518795619300, 6061747103893946500, 6064041636751318400, 6065189817928154400, 6065764213761163700, 6066051513508103500],
  [5950082955530116600, 6023080297471266500, 6059801491588728100, 6078236601783837900, 6087479079611939200, 6092108647423656900, 6094426212972224900, 6095585924299278300, 6096166089815563900, 6096456275941855400],
  [5979179135946899000, 6052903395070317700, 6089991390203065500, 6108611021856892100, 6117946135775448200, 6122622147182114900, 6124962976485736300, 6126134333703163300, 6126720326842342700, 6127013428341012600],
  [6008413938626398600, 6082872319867715200, 6120330768584599800, 6139136764818630200, 6148565442035129800, 6153288362531373700, 6155652688969828400, 6156835808978885900, 6157427688262178200, 6157723734417397900],
  [6037787987332806800, 6112987766533168000, 6150820357604692800, 6169814579893617500, 6179337756876963000, 6184108056616570600, 6186496115908741500, 6187691116783416600, 6188288941319476500, 6188587961709493000],
  [6067301908265023700, 6143250432861292200, 6181460891615869400, 6200645219969477800, 6210263842542206700, 6215081996384650000, 6217494026611931000, 6218701027610708900, 6219304857101513200, 6219606881601596300],
  [6096956330062247200, 6173661019783798300, 6212253108467462500, 6231629441614325700, 6241344465045743500, 6246210952603187600, 6248647194233135200, 6249866315810859900, 6250476210557666400, 6250781269343092500],
  [6126751883809511400, 6204220231381705300, 6243197749521333700, 6262768005094303600, 6272580394194543100, 6277495699879313500, 6279956395789520700, 6281187759609393300, 6281803780518744100, 6282111904067807500],
  [6156689203043209800, 6234928774897578200, 6274295559667643000, 6294061674391172300, 6303972403606183800, 6308937016678701500, 6311422412180927100, 6312666141126607600, 6313288349716414900, 6313599568813465500],
  [6186768923756576900, 6265787360747808500, 6305547287340699700, 6325511217220002200, 6335521270727477100, 6340535685344686800, 6343046028209212500, 6344302246397055100, 6344930704802723500, 6345245050541243300],
  [6216991684405118400, 6296796702534909900, 6336953684534849100, 6357117405046927200, 6367227776853182100, 6372292492117446500, 6374828032597677900, 6376096865389092400, 6376731636369713100, 6377049140155418600],
  [6247358125912038300, 6327957517059830200, 6368515506820443200, 6388881013106978900, 6399092707144800500, 6404208227153289000, 6406769218010615300, 6408050792024528600, 6408691938969143100, 6409012632523117600],
  [6277868891673593300, 6359270524334326200, 6400233513359861500, 6420802820422030400, 6431116850649475100, 6436283684544043100, 6438870381072926900, 6440164824198401300, 6440812411132311100, 6441136326494171200],
  [6308524627564436400, 6390736447593320200, 6432108466923589800, 6452883609818761000, 6463301000318954400, 6468519662336517900, 6471132322389849300, 6472439763798803700, 6473093855389959500, 6473421024921050500],
  [6339325981942899200, 6422356013307320200, 6464141133906381300, 6485124167946771200, 6495645953028678100, 6500916962552089900, 6503555846566785700, 6504876416726853300, 6505537078292296700, 6505867534678929900],
  [6370273605656255300, 6454129951194845400, 6496332284343447700, 6517525285296722600, 6528152509596921700, 6533476391206359700, 6536141762229220400, 6537475592916733100, 6538142890429114400, 6538476666685815600],
  [6401368152045927200, 6486058994234883100, 6528682691926746900, 6550087756218589900, 6560821474804059500, 6566198758328914100, 6568890882042748700, 6570238106355850300, 6570912106449997200, 6571249235922812000],
  [6432610276952662300, 6518143878679371100, 6561193134021300000, 6582812378939981300, 6593653657411901500, 6599084877983188600, 6601804022733181800, 6603164775105073800, 6603845545084640300, 6604186061454454100],
  [6464000638721659900, 6550385344065714900, 6593864391681602600, 6615699955584549900, 6626649870183123600, 6632135568286425700, 6634882005106779500, 6636256421319102100, 6636944029163271300, 6637287966449178900],
  [6495539898207660000, 6582784133229318600, 6626697249668077000, 6648751292190478000, 6659810929900806900, 6665351651429716500, 6668125654070562000, 6669513871266905200, 6670208385637168400, 6670555778199859500],
  [6527228718779989000, 6615340992316138900, 6659692496463593400, 6681967198729047600, 6693137657388040700, 6698733953698166600, 6701535798652732300, 6702937955352285100, 6703639445599283100, 6703990328144476800]]

/-- Rows from 1000 on. -/
def skRows10 : List (List Nat) := [
  [6559067766327552700, 6648056670795283300, 6692850924290051800, 6715348489123300300, 6726630877527646800, 6732283305491136200, 6735113272023199100, 6736529508134526400, 6737238044304965500, 6737592451886869700],
  [6591057709263795300, 6680931921471599700, 6726173329125033000, 6748895981266764400, 6760291419281977900, 6766000541342583900, 6768858911514187900, 6770289368349163300, 6771005021192793300, 6771362989217606700],
  [6623199218531608400, 6713967500498341100, 6759660510718509800, 6782610497042280300, 6794120115712822900, 6799886499941530700, 6802773558640983100, 6804218378928837900, 6804941219905507100, 6805302784134948000],
  [6655492967608190500, 6747164167389800700, 6793313272609613300, 6816492862340910900, 6828117804001394000, 6833942024152588800, 6836858059122735700, 6838317387024273700, 6839047488311048700, 6839412684865924800],
  [6687939632509850400, 6780522685033999800, 6827132422143483000, 6850543907080912700, 6862285325468419700, 6868167961036621500, 6871113262903406400, 6872587244025338400, 6873324678523700000, 6873693543887511600],
  [6720539891796790300, 6814043819705409100, 6861118770488153600, 6884764465226827400, 6896623525594330400, 6902565161871483500, 6905540024172794800, 6907028805582229300, 6907773646925334300, 6908146217947915300],
  [6753294426577802600, 6847728341077660900, 6895273132651527300, 6919155374808621400, 6931133254039531500, 6937134482172875600, 6940139201387672700, 6941642931626747600, 6942395254186774600, 6942771568087969400],
  [6786203920514943100, 6881577022236315900, 6929596327498396100, 6953717477940944500, 6965815364664783800, 6971876781715289000, 6974911657293031100, 6976430486393694900, 6977190365289243600, 6977570459662622000],
  [6819269059828143500, 6915590639691639200, 6964089177767537400, 6988451620842437900, 7000670715551671400, 7006792924553067300, 7009858258943423000, 7011392338442356600, 7012159849545948800, 7012543762362553700],
  [6852490533299769900, 6949769973391395900, 6998752510088870900, 7023358653855166600, 7035700169023172800, 7041883779041554000, 7044979877724417300, 7046529360678116000, 7047304580623746900, 7047692350235884900],
  [6885869032279124900, 6984115806733683300, 7033587155000675500, 7058439431464102800, 7070904591664330600, 7077150217858356300, 7080277389374156500, 7081842430374150000, 7082625436564932200, 7083017101709996800],
  [6919405250686913100, 7018628926579768500, 7068593946966864900, 7093694812316723600, 7106284854342999200, 7112593118024697200, 7115751674005019400, 7117332429193260400, 7118123299809126800, 7118518899613471300],
  [6953099885019625200, 7053310123266962700, 7103773724394356900, 7129125659242664000, 7141841832230730800, 7148213360926902600, 7151403616125397000, 7153000243209781800, 7153799057215291300, 7154198631198122000],
  [6986953634353889500, 7088160190621501700, 7139127329650464400, 7164732839273504000, 7177576404823711600, 7184011832337950900, 7187234104661569200, 7188846762931638500, 7189653600083830600, 7190057188161157400],
  [7020967200350751100, 7123179925971470800, 7174655609080381000, 7200517223662582400, 7213489455963837900, 7219989422439154400, 7223244032979691200, 7224872883322464000, 7225687824178817800, 7226095466667433100],
  [7055141287259906000, 7158370130159730900, 7210359413024725100, 7236479687904954000, 7249581873859867000, 7256147025841951100, 7259434298907894500, 7261079503823880300, 7261902629750333200, 7262314367371833200],
  [7089476601923855300, 7193731607556862500, 7246239595837141600, 7272621111757397600, 7285854551108679100, 7292485541609774000, 7295805804758482800, 7297467528377842500, 7298298921556904500, 7298714795441755400],
  [7123973853782026400, 7229265166074159100, 7282297015901974300, 7308942379258531400, 7322308384716627900, 7329005873280067600, 7332359457350257600, 7334037865449127100, 7334877608888065900, 7335297660579702200],
  [7158633754874817400, 7264971617176606100, 7318532535652004500, 7345444378749011800, 7358944276121016800, 7365708928886365700, 7369096168030937600, 7370791428047918100, 7371639605587032900, 7372063877046006000],
  [7193457019847570100, 7300851775895906200, 7354947021586249000, 7382128002891810000, 7395763131211641900, 7402595620980517500, 7406016852699693500, 7407729133752506500, 7408585830073479200, 7409014363681641500],
  [7228444365954512000, 7336906460843505500, 7391541344287821900, 7418994148692602400, 7432765860352467300, 7439666866654993600, 7443122431829800100, 7444851904732106700, 7445717205366438400, 7446150043931173300],
  [7263596513062595600, 7373136494223652200, 7428316378441881000, 7456043717520226300, 7469953378403379500, 7476923587565319200, 7480413830491393500, 7482160667769778600, 7483034659107316900, 7483471845865804700],
  [7298914183655301100, 7409542701846471400, 7465273002853607700, 7493277615127232600, 7507326604742069700, 7514366709952601700, 7517891978374338600, 7519656354285477300, 7520539123583019400, 7520980702206555900],
  [7334398102836362500, 7446125913141051100, 7502412100466275000, 7530696751670542600, 7544886463285978800, 7551997164666173500, 7555557809811218200, 7557339900359197500, 7558231535749186700, 7558677550347538100],
  [7370048998333424300, 7482886961168560800, 7539734558379381100, 7568302041732176600, 7582633882514402800, 7589815887186358900, 7593412263800430200, 7595212246754260700, 7596112837253562800, 7596563332379361600],
  [7405867600501628500, 7519826682635369500, 7577241267866834800, 7606094404340072600, 7620569795490642800, 7627823817647320200, 7631456284029401600, 7633274338940685200, 7634183974459463800, 7634638995112658100],
  [7441854642327151900, 7556945917906204800, 7614933124395217200, 7644074762989024200, 7658695139884301300, 7666021900860049200, 7669690818897907700, 7671527127118703600, 7672445898469370900, 7672905490101710800],
  [7478010859430633600, 7594245511017304300, 7652811027642104600, 7682244045661665800, 7697010857993666400, 7704411086335441000, 7708116821541521500, 7709971566242370200, 7710899565148640800, 7711363773668213400],
  [7514336990070581900, 7631726309689604000, 7690875881514465400, 7720603184849596900, 7735517896768203900, 7742992328307513700, 7746735249855172400, 7748608616043315000, 7749545935149336500, 7750014806925145100],
  [7550833775146654200, 7669389165341935000, 7729128594167107000, 7759153117574554700, 7774217207831150700, 7781766585756689500, 7785547066516807100, 7787439241054581000, 7788385973934167800, 7788859555800757400],
  [7587501958202914600, 7707234933104235700, 7767570078021205500, 7797894785409711800, 7813109747502223700, 7820734822433254500, 7824553239011196000, 7826464410634614800, 7827420651800573400, 7827898991062698700],
  [7624342285430972400, 7745264471830781000, 7806201249782893600, 7836829134501050900, 7852196476820432600, 7859898006880871500, 7863754739653833600, 7865685098991348800, 7866650943904882400, 7867134088342234200],
  [7661355505673076200, 7783478644113433500, 7845023030461910400, 7875957115588840000, 7891478361566986800, 7899257112460254500, 7903152545614966500, 7905102285206423400, 7906077830286654600, 7906565828158613700],
  [7698542370425116000, 7821878316294897400, 7884036345390331400, 7915279684029191700, 7930956372288329800, 7938813117372912900, 7942747638943734700, 7944716953259519200, 7945702295893085000, 7946195195943545800],
  [7735903633839541300, 7860464358481986400, 7923242124241336400, 7954797799815720200, 7970631484319274500, 7978567004685063700, 7982541006592435900, 7984530092052801200, 7985525330603555200, 7986023182065791300],
  [7773440052728224900, 7899237644558944300, 7962641301048100800, 7994512427601296900, 8010504677806236400, 8018519762351608900, 8022533640440917400, 8024542695435513800, 8025547929254328900, 8026050781855883700],
  [7811152386565213000, 7938199052200714200, 8002234814222670600, 8034424536719913400, 8050576937730594800, 8058672383240267000, 8062726537321061900, 8064755762228667200, 8065771091663330800, 8066278995630999200],
  [7849041397489412200, 7977349462886272600, 8042023606574981800, 8074535101208592600, 8090849253932136400, 8099025865155786600, 8103120699041436000, 8105170296249859800, 8106195822655063900, 8106708828719888500],
  [7887107850307195300, 8016689761911959300, 8082008625331899000, 8114845099829437100, 8131322621132648600, 8139581210864327600, 8143717132412011900, 8145787306338228900, 8146823132085671500, 8147341291488009700],
  [7925352512494911200, 8056220838404825800, 8122190822156342600, 8155355516091786900, 8171998038959580100, 8180339428117895300, 8184516849269055400, 8186607806379522400, 8187654034868098800, 8188177399362730000],
  [7963776154201318900, 8095943585335970200, 8162571153166478200, 8196067338274408100, 8212876511969847600, 8221301529678962500, 8225520866500102600, 8227632815331275100, 8228689550997384000, 8229218172858668300],
  [8002379548249921600, 8135858899533937900, 8203150578954944100, 8236981559447841300, 8253959049673721700, 8262468533345153000, 8266730206069083600, 8268863357248147300, 8269930705576080200, 8270464637603178500],
  [8041163470141238900, 8175967681698072300, 8243930064608223300, 8278099177496828600, 8295246666558861100, 8303841461974072900, 8308145895041557600, 8310300461307366900, 8311378528839829000, 8311917824361962600],
  [8080128698054951300, 8216270836411918400, 8284910579725973300, 8319421195142793000, 8336740382114427400, 8345421343508262200, 8349768965610062900, 8351945161834285100, 8353034056182994500, 8353578769064768900],
  [8119276012851986800, 8256769272156624200, 8326093098440522800, 8360948619966508700, 8378441220855330900, 8387209211000256800, 8391600455119628500, 8393798498328095000, 8394898328184506900, 8395448512831280700],
  [8158606198076493200, 8297463901324346500, 8367478599436371400, 8402682464430762800, 8420350212346569200, 8429206102637795700, 8433641406093369400, 8435861515487645000, 8436972390633774500, 8437528101997084100],
  [8198120039957736500, 8338355640231680600, 8409068065969792600, 8444623745903195200, 8462468391227721100, 8471413061769099100, 8475892866258220200, 8478135263237400100, 8479257294556752700, 8479818588139792200],
  [8237818327411891900, 8379445409133077400, 8450862485888473500, 8486773486679189500, 8504796797237510600, 8513831136928348400, 8518355888570831500, 8520620796753529100, 8521754096242143900, 8522321028105307400],
  [8277701852043723900, 8420734132234286900, 8492862851651248100, 8529132714004909000, 8547336475238500500, 8556461381861189800, 8561031531243516400, 8563319176490098400, 8564463857267707800, 8565036484034166700],
  [8317771408148209500, 8462222737705832300, 8535070160347893500, 8571702460100352400, 8590088475241912700, 8599304855550464100, 8603920857770421700, 8606231468205438600, 8607387644526728200, 8607966023388091700],
  [8358027792712028500, 8503912157696401700, 8577485413718964600, 8614483762182599200, 8633053852432549800, 8642362622241979100, 8647024936953743400, 8649358742988612700, 8650526530254592400, 8651110718976597100],
  [8398471805414949400, 8545803328346379000, 8620109618175745800, 8657477662489102000, 8676233667193845500, 8685635751470464600, 8690344842930122400, 8692702077286012700, 8693881592055519700, 8694471648983804700],
  [8439104248631144500, 8587897189801270800, 8662943784820223800, 8700685208301086100, 8719628985133015200, 8729125318085605500, 8733881655197143700, 8736262552928112900, 8737453912929404900, 8738049896995319500],
  [8479925927430380000, 8630194686225193700, 8705988929465164100, 8744107451967055000, 8763240877106340900, 8772832402278238000, 8777636458639987200, 8780041257156324600, 8781244581298820400, 8781846552025301600],
  [8520937649579110200, 8672696765814353500, 8749246072654209500, 8787745450926394800, 8807070419244571500, 8816758089606659800, 8821610343558199800, 8824039282650016800, 8825254691036121800, 8825862708543632000],
  [8562140225541435600, 8715404380810535400, 8792716239682106500, 8831600267733079000, 8851118692978414100, 8860903471023060700, 8865804405692579900, 8868257727553643200, 8869485341490714000, 8870099466503233000],
  [8603534468480023400, 8758318487514592200, 8836400460614948400, 8875672970079471000, 8895386785064195900, 8905269642900082500, 8910219746252244500, 8912697695504024800, 8913937637516444400, 8914557931367531700],
  [8645121194256812400, 8801440046299929800, 8880299770310505800, 8919964630820244000, 8939875787609590300, 8949857707057517000, 8954857471941760100, 8957360295657756200, 8958612689499130900, 8959239214138031000],
  [8686901221433739700, 8844770021626022200, 8924415208438632500, 8964476327996375600, 8984586798099512800, 8994668770789131200, 8999718694988483700, 9002246642718743000, 9003511613384234500, 9004144431382062400],
  [8728875371273234900, 8888309382051904500, 8968747819501717400, 9009209144859265900, 9029520919422089800, 9039703946889609800, 9044804533169973500, 9047357856965901700, 9048635530704667000, 9049274705260632400],
  [8771044467738657200, 8932059100249663600, 9013298652855224200, 9054164169894955700, 9074679259894783200, 9084964353681645700, 9090116109841572100, 9092695064280965600, 9093985568608711100, 9094631163556450200],
  [8813409337494627200, 8976020153017971000, 9058068762728282300, 9099342496848423400, 9120062933290623600, 9130451115043141200, 9135654553964107200, 9138259396176436400, 9139562859888140200, 9140214939702046000],
  [8855970809907215400, 9020193521295563300, 9103059208244368100, 9144745224748049300, 9165673058864565200, 9176165360434559000, 9181421000131754400, 9184051989823711200, 9185368543006427300, 9186027172808093600],
  [8898729717044020700, 9064580190174777900, 9148271053442026300, 9190373457930081000, 9211510761379960000, 9222108224926398400, 9227416588599988600, 9230073988081288800, 9231403762127091500, 9232069007691811500],
  [8941686893674132000, 9109181148915027100, 9193705367295666000, 9236228306063300500, 9257577171135164500, 9268280849226795100, 9273642465313730600, 9276326539523151500, 9277669667142241300, 9278341594905549100],
  [8984843177267961800, 9153997390956323400, 9239363223736458600, 9282310884173753500, 9303873423990267200, 9314684379709286700, 9320099781935591000, 9322810798467300000, 9324167413701190900, 9324846090765500500],
  [9028199407996980600, 9199029913932793200, 9285245701673237900, 9328622312669563800, 9350400661393925800, 9361319968440648700, 9366789695874270000, 9369527925004398500, 9370898163239261400, 9371583657380552100],
  [9071756428733278300, 9244279719686171100, 9331353885013526600, 9375163717365896400, 9397160030410346000, 9408188773208947900, 9413713370313089900, 9416479085026567600, 9417863083006732000, 9418555462681298100],
  [9115515085049060900, 9289747814279292500, 9377688862684611600, 9421936229509984500, 9444152683746374600, 9455291957551650200, 9460871974238676700, 9463665450256363000, 9465063346097896100, 9465762680449180500],
  [9159476225215956700, 9335435208009610800, 9424251728654660700, 9468940985806305000, 9491379779778739300, 9502630690783935000, 9508266682469781700, 9511088198275820200, 9512500131480300700, 9513206490345781100],
  [9203640700204240900, 9381342915422684700, 9471043581953955700, 9516179128441812400, 9538842482581379900, 9550206148027087400, 9555898675686227600, 9558748512555724100, 9560174624024109600, 9560888077942270700],
  [9248009363681909000, 9427471955325667300, 9518065526696149400, 9563651805111313800, 9586541961952924100, 9598019510237062000, 9603769140458020100, 9606647582484962400, 9608088014531623200, 9608808634748979000],
  [9292583072013615600, 9473823350800792200, 9565318672099608300, 9611360169042938700, 9634479393444301100, 9646071964233176800, 9651879269274592600, 9654786603400061100, 9656241499766951200, 9656969358245146700],
  [9337362684259491200, 9520398129218858900, 9612804132508838100, 9659305379023713400, 9682655958386472700, 9694364702726948300, 9700230260574198300, 9703166776614861900, 9704636282485806400, 9705371451908802900],
  [9382349062173790300, 9567197322252696300, 9660523027415931400, 9707488599425251000, 9731072843918279300, 9742898924351048700, 9748823318773433200, 9751789309450318100, 9753273571465480600, 9754016125246787700],
  [9427543070203459400, 9614221965890653100, 9708476481482144700, 9755911000229534200, 9779731243014431300, 9791675833688428700, 9797659654296917200, 9800655415264482700, 9802154581534952600, 9802904593824950500],
  [9472945575486490000, 9661473100450021800, 9756665624559483400, 9804573757054818600, 9828632354513641000, 9840696641301549500, 9846740483607122800, 9849766313482609000, 9851280533605143200, 9852038079298478000],
  [9518557447850205200, 9708951770590517100, 9805091591712385800, 9853478051181646300, 9877777383146848400, 9889962563761806700, 9896067029234354200, 9899123229627425700, 9900652654699328800, 9901417809442382100],
  [9564379559809342600, 9756659025327713000, 9853755523239487000, 9902625069578953700, 9927167539565608100, 9939474823679012400, 9945640519806849000, 9948727395349537100, 9950272177983717600, 9951045018182128100],
  [9610412786564029700, 9804595918046468000, 9902658564695403200, 9952016004930308900, 9976804040370592900, 9989234649731122700, 9995462190081046500, 9998580048458003200, 10000140342798142000, 10000920945624440000],
  [9656658005997598500, 9852763506514351800, 9951801866912642100, 10001652055660231000, 10026688108140237000, 10039243276694009000, 10045533280972019000, 10048682432951050000, 10050258394686944000, 10051046838088237000],
  [9703116098674233200, 9901162852895051300, 10001186586023506000, 10051534425960644000, 10076820971459507000, 10089501945471454000, 10095855039584017000, 10099035799046927000, 10100627585429992000, 10101423948135735000],
  [9749787947836520400, 9949795023761771200, 10050813883482170000, 10101664325817432000, 10127203864948796000, 10140011903125235000, 10146428719241200000, 10149641403214964000, 10151249173073864000, 10152053534603704000],
  [9796674439402764200, 9998661090110621100, 10100684926086699000, 10152042971037094000, 10177838029292976000, 10190774402905377000, 10197255579518484000, 10200500508206707000, 10202124421963180000, 10202936862634881000],
  [9843776461964238000, 10047762127373993000, 10150800886001236000, 10202671583273534000, 10228724711270551000, 10241790704280562000, 10248336886272580000, 10251614383087278000, 10253254602772079000, 10254075203709533000],
  [9891094906782202700, 10097099215433896000, 10201162940778202000, 10253551390054927000, 10279865163782976000, 10293062072968652000, 10299673911673149000, 10302984303266842000, 10304640992535880000, 10305469835677188000],
  [9938630667784822600, 10146673438635319000, 10251772273380574000, 10304683624810735000, 10331260645884077000, 10344589780967377000, 10351267934234116000, 10354611550532270000, 10356284874682882000, 10357122042788521000],
  [9986384641563879300, 10196485885799569000, 10302630072204258000, 10356069526898815000, 10382912422809658000, 10396375106585202000, 10403120238845183000, 10406497413078926000, 10408187539066329000, 10409033115727400000],
  [10034357727371346000, 10246537650237544000, 10353737531100459000, 10407710341632613000, 10434821766007157000, 10448419334472265000, 10455232116803412000, 10458643185542627000, 10460350281996524000, 10461204351643084000],
  [10082550827115790000, 10296829829763045000, 10405095849398209000, 10459607320308529000, 10486989953165568000, 10500723755651543000, 10507604865845050000, 10511050169031755000, 10512774406273117000, 10513637054182595000],
  [10130964845358626000, 10347363526706068000, 10456706231926884000, 10511761720233357000, 10539418268245339000, 10553289667550123000, 10560239790177454000, 10563719671159551000, 10565461221217558000, 10566332533523248000],
  [10179600689310158000, 10398139847926017000, 10508569889038831000, 10564174804751815000, 10592108001508567000, 10606118374030634000, 10613138200511180000, 10616653006076523000, 10618412042705682000, 10619292106405330000],
  [10228459268825497000, 10449159904824977000, 10560688036632042000, 10616847843274255000, 10645060449549208000, 10659211185422835000, 10666301414092267000, 10669851494503061000, 10671628193200491000, 10672517096164966000],
  [10277541496400287000, 10500424813360906000, 10613061896172903000, 10669782111304420000, 10698276915323499000, 10712569418555343000, 10719730754734627000, 10723316463762195000, 10725111001785080000, 10726008832767130000],
  [10326848287166256000, 10551935694060837000, 10665692694719016000, 10722978890467364000, 10751758708180483000, 10766194396787531000, 10773427552852641000, 10777049247812517000, 10778861804195744000, 10779768652838839000],
  [10376380558886580000, 10603693672034032000, 10718581664942063000, 10776439468537440000, 10805507143892692000, 10820087450041564000, 10827393145493858000, 10831051187281242000, 10832881942855215000, 10833797899702482000],
  [10426139231951086000, 10655699876985142000, 10771730045150746000, 10830165139466460000, 10859523544686962000, 10874249914834587000, 10881628876371936000, 10885323629497489000, 10887172766906110000, 10888097923409350000],
  [10476125229371277000, 10707955443227338000, 10825139079313824000, 10884157203411906000, 10913809239275388000, 10928683134311081000, 10936136095899657000, 10939867928525688000, 10941735632244516000, 10942670080773327000],
  [10526339476775146000, 10760461509695368000, 10878810017083159000, 10938416966765311000, 10968365562886431000, 10983388458275364000, 10990916161222171000, 10994685445199123000, 10996571901553750000, 10997515735404721000],
  [10576782902401834000, 10813219219958667000, 10932744113816862000, 10992945742180711000, 11023193857296146000, 11038367243224260000, 11045970436250361000, 11049777547153724000, 11051682944338281000, 11052636257744292000]]

/-- Rows from 1100 on. -/
def skRows11 : List (List Nat) := [
  [10627456437096094000, 10866229722234371000, 10986942630602519000, 11047744848603261000, 11078295470859581000, 11093620852379900000, 11101300291694399000, 11105145608861958000, 11107070136957845000, 11108033025097460000],
  [10678361014302546000, 10919494169400353000, 11041406834280449000, 11102815611297919000, 11133671758542296000, 11149150655722700000, 11156907105097445000, 11160791011666900000, 11162734862661694000, 11163707421668645000],
  [10729497570059763000, 10973013719008188000, 11096137997467019000, 11158159361878278000, 11189324081952032000, 11204958030024515000, 11212792260869530000, 11216715143816513000, 11218678511623052000, 11219660838595805000],
  [10780867042994144000, 11026789533296118000, 11151137398578086000, 11213777438335491000, 11245253809370536000, 11261044358881884000, 11268957150321586000, 11272919400498032000, 11274902480973712000, 11275894673985152000],
  [10832470374313627000, 11080822779201978000, 11206406321852434000, 11269671185067356000, 11301462315785509000, 11317411032749523000, 11325403171699668000, 11329405183872569000, 11331408174838816000, 11332410332946029000],
  [10884308507801154000, 11135114628376080000, 11261946057375308000, 11325841952907456000, 11357950982922716000, 11374059448973918000, 11382131730219312000, 11386173903109890000, 11388197004371834000, 11389209227625948000],
  [10936382389807958000, 11189666257194066000, 11317757901102021000, 11382291099154472000, 11414721199278248000, 11430991011827086000, 11439144238100085000, 11443226974423324000, 11445270387789665000, 11446292777245843000],
  [10988692969246665000, 11244478846769750000, 11373843154881597000, 11439019987601586000, 11471774360150915000, 11488207132540534000, 11496442114600311000, 11500565821104883000, 11502629750407970000, 11503662408135462000],
  [11041241197584154000, 11299553582967902000, 11430203126480510000, 11496029988566008000, 11529111867674781000, 11545709229339316000, 11554026786051927000, 11558191873560535000, 11560276524676626000, 11561319553768962000],
  [11094028028834243000, 11354891656416991000, 11486839129606448000, 11553322478918623000, 11586735130851877000, 11603498727476336000, 11611899685895561000, 11616106569345674000, 11618212150215411000, 11619265654800632000],
  [11147054419550138000, 11410494262521899000, 11543752483932189000, 11610898842113755000, 11644645565585022000, 11661577059266728000, 11670062254715736000, 11674311353200736000, 11676438073849818000, 11677502159100888000],
  [11200321328816674000, 11466362601476618000, 11600944515119499000, 11668760468219063000, 11702844594710847000, 11719945664122473000, 11728515940276291000, 11732807677087016000, 11734955749647086000, 11736030521792350000],
  [11253829718242379000, 11522497878276874000, 11658416554843115000, 11726908753945529000, 11761333648032895000, 11778605988587126000, 11787262197555931000, 11791597000222646000, 11793766638952383000, 11794852205286151000],
  [11307580551951251000, 11578901302732727000, 11716169940814779000, 11785345102677590000, 11820114162354955000, 11837559486370762000, 11846302488783980000, 11850680789118771000, 11852872210425190000, 11853968679318431000],
  [11361574796574375000, 11635574089481125000, 11774206016807344000, 11844070924503394000, 11879187581514473000, 11896807618385035000, 11905638283476308000, 11910060517615874000, 11912273940075850000, 11913381420986975000],
  [11415813421241280000, 11692517457998423000, 11832526132678954000, 11903087636245143000, 11938555356416157000, 11956351852778435000, 11965271058471410000, 11969737666920312000, 11971973311302300000, 11973091914788086000],
  [11470297397571116000, 11749732632612857000, 11891131644397240000, 11962396661489603000, 11998218945065739000, 12016193664971732000, 12025202297966702000, 12029713725641031000, 12031971814927017000, 12033101652653600000],
  [11525027699663534000, 11807220842516954000, 11950023914063643000, 12021999430618702000, 12058179812603834000, 12076334537693526000, 12085433493554953000, 12089990189826410000, 12092270949234089000, 12093412133988098000],
  [11580005304089406000, 11864983321779928000, 12009204309937755000, 12081897380840262000, 12118439431340047000, 12136775961016049000, 12145966144260912000, 12150568563001377000, 12152872220006529000, 12154024865706315000],
  [11635231189881275000, 11923021309360007000, 12068674206461721000, 12142091956218837000, 12178999280787136000, 12197519432391059000, 12206801756578142000, 12211450356204641000, 12213777140563750000, 12214941362270734000],
  [11690706338523548000, 11981336049116704000, 12128434984284727000, 12202584607706716000, 12239860847695386000, 12258566456685971000, 12267941844505963000, 12272637088026110000, 12274987231799206000, 12276163145729345000],
  [11746431733942539000, 12039928789823085000, 12188488030287549000, 12263376793174989000, 12301025626087134000, 12319918546220101000, 12329387929586667000, 12334130284644551000, 12336504022218269000, 12337691745753627000],
  [11802408362496157000, 12098800785177907000, 12248834737607120000, 12324469977444789000, 12362495117291436000, 12381577220801143000, 12391141540942842000, 12395931479865367000, 12398329047976248000, 12399528699676688000],
  [11858637212963435000, 12157953293817790000, 12309476505661212000, 12385865632318620000, 12424270829978889000, 12443544007761763000, 12453204215314912000, 12458042215158600000, 12460463852916635000, 12461675552531618000],
  [11915119276533779000, 12217387579329267000, 12370414740173160000, 12447565236611832000, 12486354280196619000, 12505820441996423000, 12515577497098852000, 12520464039697128000, 12522909988609500000, 12524133857090029000],
  [11971855546795973000, 12277104910260832000, 12431650853196616000, 12509570276184205000, 12548746991403429000, 12568408065998318000, 12578262938384085000, 12583198510395015000, 12585669014390127000, 12586905173900778000],
  [12028847019726939000, 12337106560134894000, 12493186263140412000, 12571882243971665000, 12611450494505108000, 12631308429896553000, 12641262098991584000, 12646247191946092000, 12648742497397789000, 12649991071328892000],
  [12086094693680232000, 12397393807459692000, 12555022394793456000, 12634502640018121000, 12674466327889870000, 12694523091493442000, 12704576546512138000, 12709611656862706000, 12712132012614777000, 12713393125594686000],
  [12143599569374285000, 12457967935741153000, 12617160679349678000, 12697432971507433000, 12737796037463982000, 12758053616302032000, 12768207856344794000, 12773293485514649000, 12775839142905558000, 12777112920813075000],
  [12201362649880410000, 12518830233494678000, 12679602554433064000, 12760674752795491000, 12801441176687559000, 12821901577583766000, 12832157611735536000, 12837294266168331000, 12839865479056174000, 12841152049033086000],
  [12259384940610501000, 12579981994256887000, 12742349464122716000, 12824229505442434000, 12865403306610488000, 12886068556386337000, 12896427403816087000, 12901615595026070000, 12904212619813825000, 12905512110277557000],
  [12317667449304497000, 12641424516597281000, 12805402858978002000, 12888098758244988000, 12929683995908528000, 12950556141581755000, 12961018831642971000, 12966259076265647000, 12968882171926648000, 12970194712583056000],
  [12376211186017599000, 12703159104129854000, 12868764196063745000, 12952284047268923000, 12994284820919588000, 13015365929904538000, 13025933502236698000, 13031226322080021000, 13033875750183679000, 13035201472039969000],
  [12435017163107144000, 12765187065524640000, 12932434938975473000, 13016786915881654000, 13059207365680144000, 13080499525990125000, 13091173030621199000, 13096518952717240000, 13099194977455058000, 13100534012832820000],
  [12494086395219291000, 12827509714519188000, 12996416557864727000, 13081608914784959000, 13124453221961830000, 13145958542413461000, 13156739039863407000, 13162138596520564000, 13164841484732362000, 13166193967280762000],
  [12553419899275381000, 12890128369929966000, 13060710529464434000, 13146751602047806000, 13190023989308202000, 13211744599727770000, 13222633161113061000, 13228086889968788000, 13230816911169235000, 13232182975878307000],
  [12613018694458019000, 12953044355663716000, 13125318337114307000, 13212216543139338000, 13255921275071633000, 13277859326503492000, 13288857033642692000, 13294365477716731000, 13297122904122114000, 13298502687336212000],
  [12672883802196886000, 13016259000728704000, 13190241470786358000, 13278005310961970000, 13322146694450417000, 13344304359367426000, 13355412304887812000, 13360976012635972000, 13363761119191249000, 13365154758622615000],
  [12733016246154279000, 13079773639245944000, 13255481427110414000, 13344119485884607000, 13388701870526020000, 13411081343042070000, 13422300630487289000, 13427920155855763000, 13430733220261868000, 13432140855004352000],
  [12793417052210316000, 13143589610460310000, 13321039709399712000, 13410560655775998000, 13455588434300480000, 13478191930385098000, 13489523674323914000, 13495199576804135000, 13498040879545578000, 13499462650088480000],
  [12854087248447919000, 13207708258751583000, 13386917827676547000, 13477330416038229000, 13522808024734002000, 13545637782429083000, 13557083108565203000, 13562815953249234000, 13565685777621961000, 13567121825864016000],
  [12915027865137417000, 13272130933645442000, 13453117298697968000, 13544430369640318000, 13590362288782697000, 13613420568421372000, 13624980613704348000, 13630770971340838000, 13633669603480369000, 13635120072743888000],
  [12976239934720957000, 13336858989824346000, 13519639645981546000, 13611862127151956000, 13658252881436517000, 13681541965864160000, 13693217878601397000, 13699066325652093000, 13701994054561951000, 13703459089607073000],
  [13037724491796496000, 13401893787138373000, 13586486399831165000, 13679627306777388000, 13726481465757334000, 13750003660554753000, 13761796600524630000, 13767703719221449000, 13770660836801870000, 13772140583840985000],
  [13099482573101591000, 13467236690615930000, 13653659097362930000, 13747727534389378000, 13795049712917194000, 13818807346626032000, 13830718485192132000, 13836684863594797000, 13839671664671718000, 13841166271384021000],
  [13161515217496835000, 13532889070474442000, 13721159282531026000, 13816164443563383000, 13863959302236757000, 13887954726587094000, 13899985246813592000, 13906011478867842000, 13909028261222192000, 13910537876768379000],
  [13223823465948966000, 13598852302130898000, 13788988506153737000, 13884939675611755000, 13933211921223876000, 13957447511364079000, 13969598608132251000, 13975685293728644000, 13978732358125922000, 13980257133163041000],
  [13286408361513721000, 13665127766212358000, 13857148325939445000, 13954054879618162000, 14002809265612393000, 14027287420341228000, 14039560300467116000, 14045708045500401000, 14048785695720538000, 14050325782416993000],
  [13349270949318310000, 13731716848566342000, 13925640306512712000, 14023511712472096000, 14072753039401056000, 14097476181402096000, 14109872063755349000, 14116081480184443000, 14119190023051982000, 14120745575102676000],
  [13412412276543620000, 13798620940271148000, 13994466019440420000, 14093311838903515000, 14143044954892660000, 14168015530970969000, 14180535646594860000, 14186807352503413000, 14189947097917977000, 14191518270559606000],
  [13475833392406071000, 13865841437646079000, 14063627043257939000, 14163456931517618000, 14213686732733316000, 14238907214054493000, 14251552806287126000, 14257887425944684000, 14261058686911755000, 14262645636938265000],
  [13539535348139134000, 13933379742261571000, 14133124963495348000, 14233948670829760000, 14284680101951915000, 14310152984283486000, 14322925308880189000, 14329323472803985000, 14332526565465985000, 14334129451244184000],
  [13603519196974577000, 14001237260949220000, 14202961372703733000, 14304788745300483000, 14356026799999784000, 14381754603954947000, 14394654929211905000, 14401117274229247000, 14404352517896931000, 14405971499382246000],
  [13667785994123296000, 14069415405811751000, 14273137870481525000, 14375978851370706000, 14427728572790495000, 14453713844074272000, 14466743450953355000, 14473270620264650000, 14476538337448819000, 14478173576201214000],
  [13732336796755876000, 14137915594232843000, 14343656063500848000, 14447520693497000000, 14499787174739829000, 14526032484397664000, 14539192666652521000, 14545785309894903000, 14549085826338426000, 14550737485538486000],
  [13797172663982801000, 14206739248886883000, 14414517565533972000, 14519415984187031000, 14572204368805979000, 14598712313474744000, 14612004377778123000, 14618663151089744000, 14621996795799898000, 14623665040265072000],
  [13862294656834273000, 14275887797748622000, 14485723997479789000, 14591666444035150000, 14644981926529866000, 14671755128691366000, 14685180394763696000, 14691905960848638000, 14695273066129780000, 14696958062330782000],
  [13927703838239760000, 14345362674102732000, 14557276987390335000, 14664273801758059000, 14718121628075691000, 14745162736312618000, 14758722537051901000, 14765515565245739000, 14768916466732297000, 14770618382809670000],
  [13993401273007149000, 14415165316553213000, 14629178170497368000, 14737239794230670000, 14791625262271599000, 14818936951526078000, 14832632633139001000, 14839493799475008000, 14842928836164808000, 14844647841945667000],
  [14059388027801531000, 14485297169032766000, 14701429189238977000, 14810566166522047000, 14865494626650594000, 14893079598485180000, 14906912520619596000, 14913842507895634000, 14917312022183543000, 14919048289198471000],
  [14125665171123677000, 14555759680812028000, 14774031693286256000, 14884254671931522000, 14939731527491579000, 14967592510352887000, 14981564046231556000, 14988563544077604000, 14992067881789542000, 14993821583289655000],
  [14192233773288128000, 14626554306508666000, 14846987339570019000, 14958307072024923000, 15014337779860609000, 15042477529345509000, 15056589065901183000, 15063658770847553000, 15067198281274806000, 15068969592249007000],
  [14259094906400916000, 14697682506096413000, 14920297792307552000, 15032725136670930000, 15089315207652309000, 15117736506776730000, 15131989444788592000, 15139130060334819000, 15142705096268716000, 15144494193461087000],
  [14326249644336929000, 14769145744913970000, 14993964723029421000, 15107510644077586000, 15164665643631477000, 15193371303101871000, 15207767057333284000, 15214979294017706000, 15218590211784648000, 15220397273712058000],
  [14393699062716900000, 14840945493673785000, 15067989810606317000, 15182665380828929000, 15240390929474884000, 15269383787962346000, 15283923787300013000, 15291208362770026000, 15294855522266842000, 15296680729236706000],
  [14461444238884029000, 14913083228470712000, 15142374741275947000, 15258191141921751000, 15316492915813225000, 15345775840230298000, 15360461527824764000, 15367819166907805000, 15371502931637486000, 15373346465765705000],
  [14529486251880223000, 14985560430790603000, 15217121208669956000, 15334089730802507000, 15392973462273302000, 15422549348053536000, 15437382181461082000, 15444813616236291000, 15448534353344066000, 15450396398573134000],
  [14597826182421940000, 15058378587518689000, 15292230913840922000, 15410362959404357000, 15469834437520336000, 15499706208900533000, 15514687660226510000, 15522193630097127000, 15525951710406898000, 15527832452524230000],
  [14666465112875690000, 15131539190947943000, 15367705565289366000, 15487012648184322000, 15547077719300521000, 15577248329605810000, 15592379885649352000, 15599961137415812000, 15603756935466954000, 15605656562123352000],
  [14735404127233086000, 15205043738787220000, 15443546878990808000, 15564040626160616000, 15624705194483720000, 15655177626415391000, 15670460788815576000, 15678118076749348000, 15681951970833902000, 15683870671562228000],
  [14804644311085562000, 15278893734169362000, 15519756578422864000, 15641448730950053000, 15702718759106362000, 15733496025032559000, 15748932310416009000, 15756666396334180000, 15760538768534348000, 15762476734768396000],
  [14874186751598666000, 15353090685659113000, 15596336394592403000, 15719238808805672000, 15781120318414540000, 15812205460663774000, 15827796400793754000, 15835608054134288000, 15839519290360416000, 15841476715453929000],
  [14944032537485932000, 15427636107260913000, 15673288066062694000, 15797412714654409000, 15859911786907273000, 15891307878064854000, 15907055019991758000, 15914945017889634000, 15918895507918432000, 15920872587164361000],
  [15014182758982399000, 15502531518426597000, 15750613338980674000, 15875972312134983000, 15939095088380009000, 15970805231587323000, 15986710137800755000, 15994679265164711000, 15998669402677988000, 16000666333327921000],
  [15084638507817681000, 15577778444062908000, 15828313967104140000, 15954919473635833000, 16018672155968201000, 16050699485225015000, 16066763733807311000, 16074812783397452000, 16078842966021148000, 16080859947304921000],
  [15155400877188648000, 15653378414538940000, 15906391711829091000, 16034256080333285000, 16098644932191226000, 16130992612660894000, 16147217797442159000, 16155347569948301000, 16159418199291967000, 16161455432437480000],
  [15226470961731672000, 15729332965693357000, 15984848342217046000, 16113984022229823000, 16179015368996397000, 16211686597314062000, 16228074328028762000, 16236285632149593000, 16240397113846186000, 16242454802099442000],
  [15297849857494487000, 15805643638841575000, 16063685635022400000, 16194105198192425000, 16259785427803163000, 16292783432387031000, 16309335334832146000, 16317628987355091000, 16321781731101267000, 16323860079746580000],
  [15369538661907566000, 15882311980782677000, 16142905374719834000, 16274621515991131000, 16340957079547573000, 16374285120913150000, 16391002837107867000, 16399379662989839000, 16403574082586581000, 16405673298966972000],
  [15441538473755149000, 15959339543806322000, 16222509353531752000, 16355534892337736000, 16422532304726851000, 16456193675804382000, 16473078864151360000, 16481539696600250000, 16485776209993919000, 16487896503531767000],
  [15513850393145769000, 16036727885699414000, 16302499371455729000, 16436847252924554000, 16504513093444206000, 16538511119899141000, 16555565455347383000, 16564111135904398000, 16568390165228195000, 16570531747446077000],
  [15586475521482412000, 16114478569752642000, 16382877236292066000, 16518560532463408000, 16586901445453873000, 16621239486010471000, 16638464660219846000, 16647096038842641000, 16651418010458476000, 16653581095000161000],
  [15659414961432142000, 16192593164766886000, 16463644763671244000, 16600676674724639000, 16669699370206233000, 16704380816974403000, 16721778538481714000, 16730496473628374000, 16734861818169161000, 16737046620820911000],
  [15732669816895386000, 16271073245059445000, 16544803777081573000, 16683197632576419000, 16752908886893285000, 16787937165698562000, 16805509160085320000, 16814314518799150000, 16818723671211511000, 16820930409923520000],
  [15806241192974725000, 16349920390470157000, 16626356107896752000, 16766125368024055000, 16836532024494175000, 16871910595211009000, 16889658605272813000, 16898552263267988000, 16903005662855429000, 16905234557763472000],
  [15880130195943191000, 16429136186367297000, 16708303595403470000, 16849461852249462000, 16920570821821000000, 16956303178709196000, 16974228964626862000, 16983211806374937000, 16987709896841365000, 16989961170288753000],
  [15954337933212229000, 16508722223653387000, 16790648086829126000, 16933209065650868000, 17005027327564811000, 17041116999609387000, 17059222339121695000, 17068295257938935000, 17072838487432709000, 17075112363992336000],
  [16028865513299028000, 16588680098770757000, 16873391437369451000, 17017368997882528000, 17089903600341742000, 17126354151596045000, 17144640840174221000, 17153804738309866000, 17158393559468209000, 17160690265964926000],
  [16103714045793579000, 16669011413707028000, 16956535510216246000, 17101943647894649000, 17175201708739443000, 17212016738671641000, 17230486589695587000, 17239742378420901000, 17244377248414811000, 17246697013947970000],
  [16178884641325070000, 16749717776000390000, 17040082176585161000, 17186935023973473000, 17260923731363644000, 17298106875206613000, 17316761720142817000, 17326110319841131000, 17330791700420699000, 17333134756386939000],
  [16254378411528016000, 16830800798744702000, 17124033315743387000, 17272345143781401000, 17347071756884904000, 17384626685989571000, 17403468374570841000, 17412910714828395000, 17417639072368596000, 17420005652484839000],
  [16330196469007685000, 16912262100594433000, 17208390815037507000, 17358176034397380000, 17433647884085638000, 17471578306277727000, 17490608706684667000, 17500145726382418000, 17504921531929358000, 17507311872256064000],
  [16406339927305277000, 16994103305769448000, 17293156569921260000, 17444429732357332000, 17520654221907284000, 17558963881847588000, 17578184880891867000, 17587817528298161000, 17592641257615782000, 17595055596580429000],
  [16482809900862420000, 17076326044059561000, 17378332483983436000, 17531108283694790000, 17608092889497669000, 17646785569045875000, 17666199072355289000, 17675928305219517000, 17680800438836766000, 17683239017257532000],
  [16559607504985308000, 17158931950828994000, 17463920468975706000, 17618213743981620000, 17695966016258644000, 17735045534840638000, 17754653467046085000, 17764480252693188000, 17769401275951648000, 17771864337061374000],
  [16636733855808269000, 17241922667020564000, 17549922444840479000, 17705748178368903000, 17784275741893809000, 17823745956872698000, 17843550261796862000, 17853475577222843000, 17858445980324874000, 17860933769795230000],
  [16714190070256880000, 17325299839159768000, 17636340339738873000, 17793713661627984000, 17873024216456607000, 17912889023507243000, 17932891664355244000, 17942916496323586000, 17947936774380911000, 17950449540346844000],
  [16791977266010550000, 17409065119358628000, 17723176090078563000, 17882112278191593000, 17962213600398420000, 18002476933885674000, 18022679893437601000, 18032805238576675000, 18037875891659443000, 18040413884743815000],
  [16870096561464626000, 17493220165319370000, 17810431640541777000, 17970946122195210000, 18051846064617069000, 18092511897977798000, 18112917178783043000, 18123144043684480000, 18128265576870844000, 18130829050209386000],
  [16948549075691956000, 17577766640337885000, 17898108944113238000, 18060217297518426000, 18141923790505391000, 18182996136634072000, 18203605761207733000, 18213935162525716000, 18219108085951917000, 18221697295218376000]]

/-- Rows from 1200 on. -/
def skRows12 : List (List Nat) := [
  [17027335928403945000, 17662706213307088000, 17986209962108129000, 18149927917826613000, 18232448970000047000, 18273931881638301000, 18294747892659384000, 18305180857211008000, 18310405686121911000, 18313020889553451000],
  [17106458239911103000, 17748040558719914000, 18074736664200095000, 18240080106612565000, 18323423805630602000, 18365321375760406000, 18386345836272064000, 18396883401138646000, 18402160655938825000, 18404802114361737000],
  [17185917131083094000, 17833771356672294000, 18163691028449270000, 18330675997238428000, 18414850510568712000, 18457166872809554000, 18478401866421284000, 18489045079050692000, 18494375285355996000, 18497043262211570000],
  [17265713723308165000, 17919900292865835000, 18253075041330273000, 18421717732977676000, 18506731308677651000, 18549470637687474000, 18570918268779282000, 18581668187089274000, 18587051875778939000, 18589746637149691000],
  [17345849138452125000, 18006429058610253000, 18342890697760232000, 18513207467057216000, 18599068434561869000, 18642234946442054000, 18663897340370689000, 18674755032853270000, 18680192740122489000, 18682914554758616000],
  [17426324498816804000, 18093359350825733000, 18433140001126870000, 18605147362699727000, 18691864133616960000, 18735462086321139000, 18757341389628316000, 18768307935455152000, 18773800202868254000, 18776549342214309000],
  [17507140927097806000, 18180692872044955000, 18523824963316549000, 18697539593166074000, 18785120662079709000, 18829154355826664000, 18851252736449345000, 18862329225578216000, 18867876600122294000, 18870653338344191000],
  [17588299546341977000, 18268431330414992000, 18614947604742291000, 18790386341797836000, 18878840287078369000, 18923314064768923000, 18945633712251712000, 18956821245534005000, 18962424279673134000, 18965228893685401000],
  [17669801479904088000, 18356576439698912000, 18706509954371932000, 18883689802060056000, 18973025286683199000, 19017943534321204000, 19040486660030782000, 19051786349320071000, 19057445601050060000, 19060278370543339000],
  [17751647851403048000, 18445129919277277000, 18798514049756153000, 18977452177584033000, 19067677949957201000, 19113045097074614000, 19135813934416324000, 19147226902678033000, 19152942935581660000, 19155804143050528000],
  [17833839784677619000, 18534093494149265000, 18890961937056583000, 19071675682210361000, 19162800577007005000, 19208621097093148000, 19231617901729697000, 19243145283151832000, 19248918666454739000, 19251808597225761000],
  [17916378403741415000, 18623468894933718000, 18983855671073885000, 19166362540032011000, 19258395479034088000, 19304673889969058000, 19327900940041401000, 19339543880146370000, 19345375188773422000, 19348294131033516000],
  [17999264832737481000, 18713257857869918000, 19077197315275893000, 19261514985437621000, 19354464978386086000, 19401205842878435000, 19424665439228821000, 19436425094986408000, 19442314909618643000, 19445263154443736000],
  [18082500195892207000, 18803462124818048000, 19170988941825652000, 19357135263154895000, 19451011408608433000, 19498219334637110000, 19521913801034314000, 19533791340975722000, 19539740248107895000, 19542718089491803000],
  [18166085617468693000, 18894083443259567000, 19265232631609615000, 19453225628294140000, 19548037114496129000, 19595716755756706000, 19619648439123505000, 19631645043456585000, 19637653635455245000, 19640661370338930000],
  [18250022221719515000, 18985123566297227000, 19359930474265628000, 19549788346391987000, 19645544452145756000, 19693700508501073000, 19717871779143963000, 19729988639869533000, 19736057515031703000, 19739095443332754000],
  [18334311132838902000, 19076584252654915000, 19455084568211160000, 19646825693455158000, 19743535789007768000, 19792173006942911000, 19816586258784047000, 19828824579813421000, 19834954342425843000, 19838022767068291000],
  [18418953474914328000, 19168467266677251000, 19550697020671335000, 19744339956004487000, 19842013503938896000, 19891136677020655000, 19915794327832151000, 19928155325105744000, 19934346585504765000, 19937445812449165000],
  [18503950371877475000, 19260774378328918000, 19646769947707036000, 19842333431119036000, 19940979987254869000, 19990593956595668000, 20015498448236121000, 20027983349843351000, 20034236724475320000, 20037367062749171000],
  [18589302947454665000, 19353507363193755000, 19743305474243029000, 19940808426480265000, 20040437640783275000, 20090547295509624000, 20115701094163035000, 20128311140463331000, 20134627251945675000, 20137789013674093000],
  [18675012325116570000, 19446668002473647000, 19840305734096047000, 20039767260416529000, 20140388877916724000, 20190999155642226000, 20216404752059273000, 20229141195804278000, 20235520672987162000, 20238714173423909000],
  [18761079628027387000, 19540258082987049000, 19937772870002875000, 20139212261947519000, 20240836123666194000, 20291952010969193000, 20317611920710802000, 20330476027167858000, 20336919505196425000, 20340145062755246000],
  [18847505978993387000, 19634279397167394000, 20035709033648420000, 20239145770828987000, 20341781814714549000, 20393408347620438000, 20419325111303861000, 20432318158380633000, 20438826278757923000, 20442084215044131000],
  [18934292500410812000, 19728733743061128000, 20134116385693790000, 20339570137597532000, 20443228399470395000, 20495370663938563000, 20521546847485805000, 20534670125856212000, 20541243536506666000, 20544534176349133000],
  [19021440314213135000, 19823622924325539000, 20232997095804367000, 20440487723615560000, 20545178338122038000, 20597841470537670000, 20624279665426390000, 20637534478657744000, 20644173833991353000, 20647497505474739000],
  [19108950541817746000, 19918948750226324000, 20332353342677828000, 20541900901116381000, 20647634102691784000, 20700823290362352000, 20727526113879235000, 20740913778560660000, 20747619739537738000, 20750976774035132000],
  [19196824304071873000, 20014713035634860000, 20432187314072196000, 20643812053249399000, 20750598177090348000, 20804318658747004000, 20831288754243622000, 20844810600115716000, 20851583834312362000, 20854974566518147000],
  [19285062721198058000, 20110917601025229000, 20532501206833854000, 20746223574125568000, 20854073057171602000, 20908330123475424000, 20935570160626613000, 20949227530712447000, 20956068712386609000, 20959493480349731000],
  [19373666912738743000, 20207564272470929000, 20633297226925591000, 20849137868862822000, 20958061250787457000, 21012860244840642000, 21040372919905435000, 21054167170642801000, 21061076980801025000, 21064536125958554000],
  [19462637997500417000, 20304654881641390000, 20734577589454507000, 20952557353631749000, 21062565277843032000, 21117911595705058000, 21145699631790187000, 21159632133165168000, 21166611259630000000, 21170105126841074000],
  [19551977093496913000, 20402191265798071000, 20836344518700044000, 21056484455701411000, 21167587670352025000, 21223486761560856000, 21251552908886799000, 21265625044568699000, 21272674182046786000, 21276203119626805000],
  [19641685317892225000, 20500175267790442000, 20938600248141929000, 21160921613485258000, 21273130972492317000, 21329588340590656000, 21357935376760409000, 21372148544237971000, 21379268394388768000, 21382832754144043000],
  [19731763786942476000, 20598608736051509000, 21041347020488110000, 21265871276587182000, 21379197740661812000, 21436218943728508000, 21464849673998875000, 21479205284717882000, 21486396556223145000, 21489996693485804000],
  [19822213615937351000, 20697493524593193000, 21144587087702636000, 21371335905847767000, 21485790543534521000, 21543381194721122000, 21572298452276768000, 21586797931778992000, 21594061340412873000, 21597697614076160000],
  [19913035919140776000, 20796831493001326000, 21248322711033548000, 21477317973390586000, 21592911962116830000, 21651077730189382000, 21680284376419535000, 21694929164483061000, 21702265433182967000, 21705938205736863000],
  [20004231809730873000, 20896624506430345000, 21352556161040741000, 21583819962668747000, 21700564589804055000, 21759311199690146000, 21788810124468028000, 21803601675248994000, 21811011534187099000, 21814721171754335000],
  [20095802399739387000, 20996874435597761000, 21457289717623809000, 21690844368511469000, 21808751032437197000, 21868084265778340000, 21897878387743389000, 21912818169919079000, 21920302356574585000, 21924049228946987000],
  [20187748799990163000, 21097583156778243000, 21562525670049799000, 21798393697170897000, 21917473908359922000, 21977399604069331000, 22007491870912117000, 22022581367825537000, 22030140627057628000, 22033925107732846000],
  [20280072120037171000, 21198752551797425000, 21668266316981037000, 21906470466368986000, 22026735848475858000, 22087259903301595000, 22117653292051617000, 22132894001857438000, 22140529085978987000, 22144351552197565000],
  [20372773468101658000, 21300384508025419000, 21774513966502845000, 22015077205344537000, 22136539496305976000, 22197667865399621000, 22228365382715880000, 22243758818527876000, 22251470487379882000, 22255331320162709000],
  [20465853951008642000, 21402480918369965000, 21881270936151213000, 22124216454900401000, 22246887508046331000, 22308626205537169000, 22339630888001647000, 22355178578041576000, 22362967599068279000, 22366867183254445000],
  [20559314674122697000, 21505043681269303000, 21988539552940528000, 22233890767450790000, 22357782552626021000, 22420137652200803000, 22451452566614755000, 22467156054362718000, 22475023202687575000, 22478961926972536000],
  [20653156741282975000, 21608074700684717000, 22096322153391166000, 22344102707068745000, 22469227311765330000, 22532204947253682000, 22563833190936917000, 22579694035283177000, 22587640093785496000, 22591618350759703000],
  [20747381254737574000, 21711575886092748000, 22204621083557093000, 22454854849533731000, 22581224480034169000, 22644830845999660000, 22676775547092732000, 22692795322491077000, 22700821081883482000, 22704839268071316000],
  [20841989315077063000, 21815549152477035000, 22313438699053448000, 22566149782379377000, 22693776764910682000, 22758018117247685000, 22790282435017035000, 22806462731639651000, 22814568990546232000, 22818627506445401000],
  [20936982021167356000, 21919996420319901000, 22422777365084027000, 22677990104941318000, 22806886886840197000, 22871769543376497000, 22904356668522620000, 22920699092416473000, 22928886657451839000, 22932985907573096000],
  [21032360470081796000, 22024919615593545000, 22532639456468762000, 22790378428405301000, 22920557579294319000, 22986087920399603000, 23019001075368233000, 23035507248613033000, 23043776934462010000, 23047917327369338000],
  [21128125757032504000, 22130320669750920000, 22643027357671156000, 22903317375855207000, 23034791588830265000, 23100976058030544000, 23134218497326900000, 23150890058194592000, 23159242687692854000, 23163424636043990000],
  [21224278975300968000, 22236201519716205000, 22753943462825683000, 23016809582321423000, 23149591675150592000, 23216436779748512000, 23250011790254613000, 23266850393370501000, 23275286797585861000, 23279510718173271000],
  [21320821216167855000, 22342564107875072000, 22865390175765041000, 23130857694829265000, 23264960611162910000, 23332472922864170000, 23366383824159308000, 23383391140664685000, 23391912158979324000, 23396178472771579000],
  [21417753568842079000, 22449410382064394000, 22977369910047545000, 23245464372447480000, 23380901183040096000, 23449087338585875000, 23483337483270195000, 23500515200986682000, 23509121681180120000, 23513430813363639000],
  [21515077120389071000, 22556742295561767000, 23089885088984272000, 23360632286336988000, 23497416190280535000, 23566282892086135000, 23600875666107388000, 23618225489702837000, 23626918288035748000, 23631270668057026000],
  [21612792955658277000, 22664561807074639000, 23202938145666256000, 23476364119799718000, 23614508445768779000, 23684062462568389000, 23719001285551947000, 23736524936708001000, 23745304918006853000, 23749700979615075000],
  [21710902157209919000, 22772870880728994000, 23316531522991655000, 23592662568327549000, 23732180775836335000, 23802428943334081000, 23837717268916134000, 23855416486497458000, 23864284524240022000, 23868724705530087000],
  [21809405805240854000, 22881671486057718000, 23430667673692743000, 23709530339651414000, 23850436020322736000, 23921385241850061000, 23957026558014117000, 23974903098239277000, 23983860074640966000, 23988344818096974000],
  [21908304977509761000, 22990965597988636000, 23545349060362972000, 23826970153790577000, 23969277032636894000, 24040934279816302000, 24076932109232962000, 24094987745847025000, 24104034551948077000, 24108564304487223000],
  [22007600749261426000, 23100755196832128000, 23660578155483881000, 23944984743101951000, 24088706679818613000, 24161078993233821000, 24197436893603933000, 24215673418052749000, 24224810953806308000, 24229386166823238000],
  [22107294193150325000, 23211042268268329000, 23776357441452015000, 24063576852329641000, 24208727842600451000, 24281822332473085000, 24318543896874226000, 24336963118480440000, 24346192292841511000, 24350813422253110000],
  [22207386379163269000, 23321828803334020000, 23892689410605697000, 24182749238654593000, 24329343415469752000, 24403167262342571000, 24440256119578955000, 24458859865719766000, 24468181596735000000, 24472849103025621000],
  [22307878374541318000, 23433116798409096000, 24009576565251788000, 24302504671744343000, 24450556306730951000, 24525116762157705000, 24562576577113467000, 24581366693400161000, 24590781908298644000, 24595496256565774000],
  [22408771243700849000, 23544908255202602000, 24127021417692390000, 24422845933802922000, 24572369438568151000, 24647673825810110000, 24685508299806150000, 24704486650265367000, 24713996285550176000, 24718757945550611000],
  [22510066048153823000, 23657205180738453000, 24245026490251450000, 24543775819620941000, 24694785747107914000, 24770841461837157000, 24809054332991413000, 24828222800248240000, 24837827801789013000, 24842637247985435000],
  [22611763846427126000, 23770009587340706000, 24363594315301291000, 24665297136625724000, 24817808182482328000, 24894622693491839000, 24933217737083117000, 24952578222545992000, 24962279545672369000, 24967137257280420000],
  [22713865693981178000, 23883323492618406000, 24482727435289064000, 24787412704931656000, 24941439708892336000, 25019020558812957000, 25058001587648319000, 25077556011695722000, 25087354621291739000, 25092261082327563000],
  [22816372643127632000, 23997148919450057000, 24602428402763152000, 24910125357390574000, 25065683304671238000, 25144038110695630000, 25183408975481388000, 25203159277650437000, 25213056148249847000, 25218011847578072000],
  [22919285742946199000, 24111487895967690000, 24722699780399454000, 25033437939642366000, 25190541962348555000, 25269678416962080000, 25309443006678454000, 25329391145855328000, 25339387261737834000, 25344392693120114000],
  [23022606039200727000, 24226342455540471000, 24843544141027667000, 25157353310165699000, 25316018688714102000, 25395944560432839000, 25436106802712223000, 25456254757324465000, 25466351112613014000, 25471406774756931000],
  [23126334574254264000, 24341714636757928000, 24964964067657351000, 25281874340328789000, 25442116504882269000, 25522839638998131000, 25563403500507145000, 25583753268717892000, 25593950867476789000, 25599057264085387000],
  [23230472386983371000, 24457606483412709000, 25086962153504051000, 25407003914440437000, 25568838446356625000, 25650366765689742000, 25691336252514938000, 25711889852419057000, 25722189708753194000, 25727347348574878000],
  [23335020512691484000, 24574020044482964000, 25209541002015251000, 25532744929801073000, 25696187563094733000, 25778529068753039000, 25819908226790516000, 25840667696612661000, 25851070834767630000, 25856280231646631000],
  [23439979983021476000, 24690957374114236000, 25332703226896236000, 25659100296754007000, 25824166919573260000, 25907329691719480000, 25949122607068165000, 25970090005362802000, 25980597459826074000, 25985859132753444000],
  [23545351825867214000, 24808420531600962000, 25456451452135907000, 25786072938736769000, 25952779594853304000, 26036771793479338000, 26078982592838217000, 26100159998691658000, 26110772814294702000, 26116087287459726000],
  [23651137065284343000, 24926411581367453000, 25580788312032466000, 25913665792332594000, 26082028682645961000, 26166858548354759000, 26209491399423995000, 26230880912658374000, 26241600144679866000, 26246967947522057000],
  [23757336721400093000, 25044932592948561000, 25705716451219027000, 26041881807322028000, 26211917291378253000, 26297593146173241000, 26340652258059174000, 26362255999438467000, 26373082713708449000, 26378504380970062000],
  [23863951810322252000, 25163985640969735000, 25831238524689114000, 26170723946734718000, 26342448544259187000, 26428978792341341000, 26472468415965487000, 26494288527403563000, 26505223800408699000, 26510699872187724000],
  [23970983344047094000, 25283572805126719000, 25957357197822047000, 26300195186901160000, 26473625579346158000, 26561018707918733000, 26604943136430775000, 26626981781201535000, 26638026700191338000, 26643557721995077000],
  [24078432330366592000, 25403696170164809000, 26084075146408280000, 26430298517504825000, 26605451549611560000, 26693716129692645000, 26738079698887498000, 26760339061837002000, 26771494724931236000, 26777081247730355000],
  [24186299772774533000, 25524357825857481000, 26211395056674549000, 26561036941634170000, 26737929623009707000, 26827074310252601000, 26871881398991503000, 26894363686752291000, 26905631203049302000, 26911273783332475000],
  [24294586670371800000, 25645559866984819000, 26339319625309006000, 26692413475834967000, 26871062982543974000, 26961096518065501000, 27006351548701266000, 27029058989908719000, 27040439479594947000, 27046138679424007000],
  [24403294017770652000, 25767304393311166000, 26467851559486159000, 26824431150162618000, 27004854826334222000, 27095786037551001000, 27141493476357428000, 27164428321868335000, 27175922916328841000, 27181679303394508000],
  [24512422804998189000, 25889593509562537000, 26596993576891756000, 26957093008234668000, 27139308367684464000, 27231146169157304000, 27277310526762789000, 27300475049876000000, 27312084891806157000, 27317899039484311000],
  [24621974017398709000, 26012429325403406000, 26726748405747531000, 27090402107283407000, 27274426835150811000, 27367180229437231000, 27413806061262602000, 27437202557941902000, 27448928801460139000, 27454801288868631000],
  [24731948635535260000, 26135813955413065000, 26857118784835838000, 27224361518208645000, 27410213472609704000, 27503891551124662000, 27550983457825313000, 27574614246924513000, 27586458057686201000, 27592389469742289000],
  [24842347635090120000, 26259749519061435000, 26988107463524161000, 27358974325630551000, 27546671539326335000, 27641283483211272000, 27688846111123652000, 27712713534613832000, 27724676089926327000, 27730667017404610000],
  [24953171986764413000, 26384238140684479000, 27119717201789517000, 27494243627942633000, 27683804310023430000, 27779359391023734000, 27827397432616099000, 27851503855815175000, 27863586344753957000, 27869637384344954000],
  [25064422656176696000, 26509281949458979000, 27251950770242703000, 27630172537364880000, 27821615074950221000, 27918122656301066000, 27966640850628791000, 27990988662433297000, 28003192285959259000, 28009304040328531000],
  [25176100603760559000, 26634883079376875000, 27384810950152452000, 27766764179996940000, 27960107139951701000, 28057576677272534000, 28106579810437723000, 28131171423556894000, 28143497394634877000, 28149670472482742000],
  [25288206784661368000, 26761043669219109000, 27518300533469455000, 27904021695871532000, 28099283826538195000, 28197724868735733000, 28247217774351456000, 28272055625543604000, 28284505169262012000, 28290740185383870000],
  [25400742148631809000, 26887765862528938000, 27652422322850197000, 28041948239007856000, 28239148471955113000, 28338570662135128000, 28388558221794095000, 28413644772105371000, 28426219125797014000, 28432516701144273000],
  [25513707639926671000, 27015051807584650000, 27787179131680769000, 28180546977465235000, 28379704429253066000, 28480117505640910000, 28530604649388759000, 28555942384394215000, 28568642797758354000, 28575003559499951000],
  [25627104197196469000, 27142903657371861000, 27922573784100388000, 28319821093396761000, 28520955067358154000, 28622368864228170000, 28673360571041411000, 28698952001088442000, 28711779736314037000, 28718204317898580000],
  [25740932753380141000, 27271323569555167000, 28058609115024932000, 28459773783103184000, 28662903771142584000, 28765328219756445000, 28816829518025049000, 28842677178479260000, 28855633510369457000, 28862122551587977000],
  [25855194235596731000, 27400313706449419000, 28195287970170246000, 28600408257086818000, 28805553941495567000, 28908999071049692000, 28961015039064349000, 28987121490557856000, 29000207706655689000, 29006761853705036000],
  [25969889565036017000, 27529876234990217000, 28332613206075292000, 28741727740105590000, 28948908995394429000, 29053384933976457000, 29105920700420691000, 29132288529102827000, 29145505929818193000, 29152125835365035000],
  [26085019656848191000, 27660013326704109000, 28470587690125219000, 28883735471227256000, 29092972365976043000, 29198489341530583000, 29251550085977580000, 29278181903768123000, 29291531802505967000, 29298218125751469000],
  [26200585420032441000, 27790727157678045000, 28609214300574226000, 29026434703883618000, 29237747502608498000, 29344315843912113000, 29397906797326463000, 29424805242171316000, 29438288965461152000, 29445042372206250000],
  [26316587757324577000, 27922019908528346000, 28748495926568248000, 29169828705925011000, 29383237870963086000, 29490868008608669000, 29544994453852978000, 29572162189982400000, 29585781077609067000, 29592602240320436000],
  [26433027565083516000, 28053893764369134000, 28888435468167620000, 29313920759674740000, 29529446953086503000, 29638149420477152000, 29692816692823580000, 29720256411012974000, 29734011816148712000, 29740901414025349000],
  [26549905733176875000, 28186350914780150000, 29029035836369364000, 29458714161983795000, 29676378247473333000, 29786163681825774000, 29841377169472615000, 29869091587305812000, 29882984876643662000, 29889943595684199000],
  [26667223144865360000, 28319393553773973000, 29170299953129527000, 29604212224285470000, 29824035269138894000, 29934914412496478000, 29990679557089773000, 30018671419225013000, 30032703973113500000, 30039732506184094000]]

/-- Rows from 1300 on. -/
def skRows13 : List (List Nat) := [
  [26784980676686214000, 28453023879762774000, 29312230751385226000, 29750418272650351000, 29972421549692194000, 30084405249947758000, 30140727547107952000, 30168999625546415000, 30183172838125605000, 30190271885028583000],
  [26903179198335569000, 28587244095524315000, 29454831175076582000, 29897335647841156000, 30121540637409339000, 30234639849337795000, 30291524849191544000, 30320079943548565000, 30334395222887448000, 30341565490430610000],
  [27021819572549718000, 28722056408167509000, 29598104179168409000, 30044967705367881000, 30271396097307061000, 30385621883607935000, 30443075191325178000, 30471916129104101000, 30486374897339356000, 30493617099405942000],
  [27140902654985356000, 28857463029097294000, 29742052729671876000, 30193317815542957000, 30421991511216651000, 30537355043566652000, 30595382319902817000, 30624511956771579000, 30639115650247680000, 30646430507867094000],
  [27260429294098693000, 28993466173978931000, 29886679803665786000, 30342389363536518000, 30573330477858075000, 30689843037973761000, 30748449999817309000, 30777871219887714000, 30792621289298484000, 30800009530717650000],
  [27380400331023558000, 29130068062701752000, 30031988389317883000, 30492185749431806000, 30725416612914409000, 30843089593625032000, 30902282014550340000, 30931997730660125000, 30946895641191654000, 30954358001947135000],
  [27500816599448349000, 29267270919342139000, 30177981485905819000, 30642710388280675000, 30878253549106525000, 30997098455437223000, 31056882166262859000, 31086895320260512000, 31101942551735453000, 31109479774726296000],
  [27621678925491933000, 29405076972126073000, 30324662103838024000, 30793966710159194000, 31031844936268135000, 31151873386533475000, 31212254275885885000, 31242567838918274000, 31257765885941667000, 31265378721502896000],
  [27742988127578434000, 29543488453390943000, 30472033264674365000, 30945958160223320000, 31186194441420966000, 31307418168328979000, 31368402183211720000, 31399019156014542000, 31414369528121017000, 31422058734097966000],
  [27864745016310956000, 29682507599546749000, 30620098001146574000, 31098688198764764000, 31341305748850364000, 31463736600617229000, 31525329746985686000, 31556253160176795000, 31571757381979225000, 31579523723802544000],
  [27986950394344099000, 29822136651036710000, 30768859357178543000, 31252160301266818000, 31497182560181081000, 31620832501656405000, 31683040844998171000, 31714273759373780000, 31729933370713469000, 31737777621474859000],
  [28109605056255496000, 29962377852297155000, 30918320387906390000, 31406377958460456000, 31653828594453384000, 31778709708256365000, 31841539374177205000, 31873084881011038000, 31888901437109332000, 31896824377638071000],
  [28232709788416129000, 30103233451716858000, 31068484159698276000, 31561344676380401000, 31811247588199434000, 31937372075865805000, 32000829250681428000, 32032690472026733000, 32048665543638180000, 32056667962578451000],
  [28356265368859587000, 30244705701595636000, 31219353750174150000, 31717063976421350000, 31969443295519921000, 32096823478660046000, 32160914409993496000, 32193094498988155000, 32209229672555122000, 32217312366444040000],
  [28480272567150165000, 30386796858102381000, 31370932248225111000, 31873539395394210000, 32128419488161052000, 32257067809628941000, 32321798807013975000, 32354300948188489000, 32370597825997403000, 32378761599343830000],
  [28604732144249800000, 30529509181232352000, 31523222754032729000, 32030774485582621000, 32288179955591745000, 32418108980665362000, 32483486416155567000, 32516313825744131000, 32532774026083212000, 32541019691447362000],
  [28729644852383954000, 30672844934763809000, 31676228379087942000, 32188772814799357000, 32448728505081098000, 32579950922653998000, 32645981231437880000, 32679137157692557000, 32695762315011111000, 32704090693084983000],
  [28855011434906257000, 30816806386214042000, 31829952246210054000, 32347537966443018000, 32610068961776290000, 32742597585560564000, 32809287266582624000, 32842774990090563000, 32859566755159823000, 32867978674848426000],
  [28980832626162099000, 30961395806794644000, 31984397489565150000, 32507073539554614000, 32772205168780495000, 32906052938521328000, 32973408555109225000, 33007231389112976000, 33024191429188651000, 33032687727691974000],
  [29107109151350952000, 31106615471366117000, 32139567254684497000, 32667383148874359000, 32935140987231361000, 33070320969933169000, 33138349150430894000, 33172510441151923000, 33189640440138231000, 33198221963034097000],
  [29233841726387672000, 31252467658391805000, 32295464698482754000, 32828470424898656000, 33098880296379585000, 33235405687543844000, 33304113125951190000, 33338616252916543000, 33355917911531960000, 33364585512859667000],
  [29361031057762499000, 31398954649891127000, 32452092989275740000, 32990339013936935000, 33263426993667869000, 33401311118542901000, 33470704575160951000, 33505552951533180000, 33523027987477728000, 33531782529822578000],
  [29488677842399995000, 31546078731392119000, 32609455306798193000, 33152992578168720000, 33428784994810119000, 33568041309652651000, 33638127611735756000, 33673324684646032000, 33690974832770365000, 33699817187348935000],
  [29616782767516722000, 31693842191883190000, 32767554842221172000, 33316434795700831000, 33594958233870896000, 33735600327219895000, 33806386369633859000, 33841935620518321000, 33859762632994353000, 33868693679740720000],
  [29745346510477874000, 31842247323764297000, 32926394798169202000, 33480669360624556000, 33761950663345260000, 33903992257307745000, 33975485003194444000, 34011389948134046000, 34029395594627351000, 34038416222280092000],
  [29874369738652550000, 31991296422797279000, 33085978388737267000, 33645699983072958000, 33929766254238838000, 34073221205788068000, 34145427687236538000, 34181691877299997000, 34199877945143842000, 34208989051334023000],
  [30003853109267977000, 32140991788055510000, 33246308839507417000, 33811530389278345000, 34098408996148077000, 34243291298434161000, 34316218617158209000, 34352845638748450000, 34371213933119704000, 34380416424459506000],
  [30133797269262467000, 32291335721872871000, 33407389387565274000, 33978164321629596000, 34267882897341014000, 34414206681014026000, 34487862009036384000, 34524855484240391000, 34543407828336946000, 34552702620509489000],
  [30264202855137232000, 32442330529791896000, 33569223281516195000, 34145605538729890000, 34438191984838100000, 34585971519383765000, 34660362099726928000, 34697725686669061000, 34716463921889214000, 34725851939738976000],
  [30395070492806962000, 32593978520511220000, 33731813781501099000, 34313857815454235000, 34609340304493502000, 34758589999581674000, 34833723146965520000, 34871460540164136000, 34890386526287613000, 34899868703911985000],
  [30526400797449168000, 32746282005832253000, 33895164159212184000, 34482924943007177000, 34781331921076512000, 34932066327922576000, 35007949429468582000, 35046064360196374000, 35065179975567275000, 35074757256408830000],
  [30658194373352415000, 32899243300605147000, 34059277697908369000, 34652810728980722000, 34954170918353414000, 35106404731092597000, 35183045247035041000, 35221541483682804000, 35240848625394207000, 35250521962334080000],
  [30790451813763237000, 33052864722673950000, 34224157692430285000, 34823518997412053000, 35127861399169548000, 35281609456244332000, 35359014920648399000, 35397896269092351000, 35417396853172828000, 35427167208624870000],
  [30923173700731874000, 33207148592821048000, 34389807449215146000, 34995053588841550000, 35302407485531664000, 35457684771092512000, 35535862792579219000, 35575133096552025000, 35594829058154059000, 35604697404159981000],
  [31056360604956777000, 33362097234710709000, 34556230286311301000, 35167418360370802000, 35477813318690606000, 35634634964009974000, 35713593226488344000, 35753256367953630000, 35773149661543761000, 35783116979869259000],
  [31190013085627945000, 33517712974832060000, 34723429533392532000, 35340617185720721000, 35654083059224205000, 35812464344124023000, 35892210607530214000, 35932270507060979000, 35952363106611929000, 35962430388843704000],
  [31324131690268917000, 33673998142440979000, 34891408531771993000, 35514653955289639000, 35831220887120624000, 35991177241413451000, 36071719342457086000, 36112179959617588000, 36132473858802285000, 36142642106446070000],
  [31458716954577616000, 33830955069501574000, 35060170634415931000, 35689532576211623000, 36009231001861812000, 36170778006805605000, 36252123859723415000, 36292989193454958000, 36313486405842400000, 36323756630421956000],
  [31593769402265916000, 33988586090626445000, 35229719205957015000, 35865256972414689000, 36188117622507329000, 36351271012274200000, 36433428609590833000, 36474702698601320000, 36495405257854482000, 36505778481011573000],
  [31729289544898051000, 34146893543016546000, 35400057622707558000, 36041831084679267000, 36367884987778501000, 36532660650937347000, 36615638064233687000, 36657324987391000000, 36678234947466630000, 36688712201061964000],
  [31865277881727543000, 34305879766399830000, 35571189272672117000, 36219258870696547000, 36548537356142823000, 36714951337156090000, 36798756717844994000, 36840860594574115000, 36861980029924538000, 36872562356139789000],
  [32001734899533250000, 34465547102969521000, 35743117555560110000, 36397544305126941000, 36730079005898600000, 36898147506633366000, 36982789086742886000, 37025314077427068000, 37046645083203947000, 37057333534644708000],
  [32138661072453750000, 34625897897321123000, 35915845882798024000, 36576691379658785000, 36912514235260034000, 37082253616513371000, 37167739709477524000, 37210690015863419000, 37232234708123577000, 37243030347923332000],
  [32276056861820793000, 34786934496388908000, 36089377677541112000, 36756704103066827000, 37095847362442425000, 37267274145481290000, 37353613146938670000, 37396993012545197000, 37418753528458450000, 37429657430383748000],
  [32413922715991292000, 34948659249381446000, 36263716374685055000, 36937586501270950000, 37280082725747794000, 37453213593863610000, 37540413982463550000, 37584227692995055000, 37606206191054085000, 37617219439610466000],
  [32552259070178176000, 35111074507716312000, 36438865420877105000, 37119342617394829000, 37465224683650752000, 37640076483728691000, 37728146821945294000, 37772398705708574000, 37794597365940950000, 37805721056480196000],
  [32691066346279919000, 35274182624953888000, 36614828274527000000, 37301976511824882000, 37651277614884682000, 37827867358987938000, 37916816293942009000, 37961510722267493000, 37983931746449685000, 37995166985278002000],
  [32830344952708687000, 35437985956730457000, 36791608405817473000, 37485492262268903000, 37838245918528128000, 38016590785497142000, 38106427049786097000, 38151568437453182000, 38174214049326763000, 38185561953814062000],
  [32970095284217495000, 35602486860690272000, 36969209296714552000, 37669893963815128000, 38026134014091634000, 38206251351158661000, 38296983763694385000, 38342576569360902000, 38365449014850839000, 38376910713541088000],
  [33110317721725742000, 35767687696416792000, 37147634440977281000, 37855185728991075000, 38214946341604751000, 38396853666023550000, 38488491132878506000, 38534539859514362000, 38557641406949526000, 38569218039672268000],
  [33251012632143744000, 35933590825363210000, 37326887344167371000, 38041371687822505000, 38404687361703382000, 38588402362394587000, 38680953877655945000, 38727463072981118000, 38750796013316914000, 38762488731299768000],
  [33392180368195808000, 36100198610781814000, 37506971523658318000, 38228455987892637000, 38595361555717460000, 38780902094929362000, 38874376741561537000, 38921350998488251000, 38944917645531485000, 38956727611513912000],
  [33533821268242128000, 36267513417652684000, 37687890508644246000, 38416442794400991000, 38786973425758792000, 38974357540744034000, 39068764491459511000, 39116208448538810000, 39140011139174771000, 39151939527522855000],
  [33675935656099297000, 36435537612611459000, 37869647840148304000, 38605336290222683000, 38979527494809395000, 39168773399517534000, 39264121917656054000, 39312040259528773000, 39336081353950510000, 39348129350772934000],
  [33818523840859642000, 36604273563876064000, 38052247071030838000, 38795140675967510000, 39173028306809958000, 39364154393595953000, 39460453834012331000, 39508851291864398000, 39533133173804365000, 39545301977069534000],
  [33961586116709075000, 36773723641172755000, 38235691765997094000, 38985860170039202000, 39367480426748667000, 39560505268097748000, 39657765078058162000, 39706646430080442000, 39731171507044333000, 39743462326698641000],
  [34105122762743897000, 36943890215661024000, 38419985501604539000, 39177499008694612000, 39562888440750385000, 39757830791019091000, 39856060511106121000, 39905430582958708000, 39930201286461638000, 39942615344548960000],
  [34249134042786122000, 37114775659857782000, 38605131866269862000, 39370061446103076000, 39759256956165952000, 39956135753339804000, 40055345018366141000, 40105208683647246000, 40130227469452301000, 40142766000234573000],
  [34393620205197518000, 37286382347560432000, 38791134460275621000, 39563551754405617000, 39956590601661977000, 40155424969129751000, 40255623509060749000, 40305985689780145000, 40331255038139224000, 40343919288218323000],
  [34538581482692392000, 37458712653769176000, 38977996895776301000, 39757974223774376000, 40154894027310838000, 40355703275655561000, 40456900916540771000, 40507766583597886000, 40533288999494932000, 40546080227935752000],
  [34684018092149091000, 37631768954608250000, 39165722796804359000, 39953333162471988000, 40354171904680998000, 40556975533487929000, 40659182198401568000, 40710556372068225000, 40736334385464978000, 40749253863919636000],
  [34829930234420117000, 37805553627246302000, 39354315799275411000, 40149632896910897000, 40554428926927524000, 40759246626609347000, 40862472336599884000, 40914360087007828000, 40940396253091746000, 40953445265925169000],
  [34976318094140972000, 37980069049815830000, 39543779550993391000, 40346877771712891000, 40755669808883094000, 40962521462522244000, 41066776337571061000, 41119182785204225000, 41145479684639150000, 41158659529055737000],
  [35123181839537700000, 38155317601331479000, 39734117711655158000, 40545072149768484000, 40957899287149116000, 41166804972357557000, 41272099232347065000, 41325029548538582000, 41351589787717677000, 41364901773889420000],
  [35270521622233084000, 38331301661607683000, 39925333952854664000, 40744220412296396000, 41161122120187264000, 41372102110983855000, 41478446076674697000, 41531905484108955000, 41558731695410231000, 41572177146605910000],
  [35418337577051595000, 38508023611175023000, 40117431958086751000, 40944326958903147000, 41365343088411242000, 41578417857116919000, 41685821951134808000, 41739815724354222000, 41766910566398550000, 41780490819114321000],
  [35566629821822932000, 38685485831195812000, 40310415422750524000, 41145396207642397000, 41570566994278878000, 41785757213429559000, 41894231961261574000, 41948765427178424000, 41976131585090067000, 41989847989181379000],
  [35715398457184334000, 38863690703378605000, 40504288054152328000, 41347432595074625000, 41776798662384519000, 41994125206662250000, 42103681237662692000, 42158759776075964000, 42186399961745759000, 42200253880560458000],
  [35864643566381471000, 39042640609891752000, 40699053571508229000, 41550440576326578000, 41984042939551693000, 42203526887733989000, 42314174936139981000, 42369803980257172000, 42397720932608254000, 42411713743121131000],
  [36014365215068206000, 39222337933275939000, 40894715705946078000, 41754424625150909000, 42192304694926103000, 42413967331853604000, 42525718237810498000, 42581903274774666000, 42610099760030842000, 42624232852979407000],
  [36164563451104727000, 39402785056355728000, 41091278200507203000, 41959389233985657000, 42401588820068919000, 42625451638631677000, 42738316349228311000, 42795062920650162000, 42823541732606885000, 42837816512628621000],
  [36315238304354708000, 39583984362150076000, 41288744810147562000, 42165338914013847000, 42611900229050294000, 42837984932192839000, 42951974502506818000, 43009288205002022000, 43038052165300079000, 43052470051070928000],
  [36466389786480889000, 39765938233781821000, 41487119301738491000, 42372278195223108000, 42823243858543365000, 43051572361288516000, 43166697955441487000, 43224584441173289000, 43253636399575211000, 43268198823949520000],
  [36618017890739429000, 39948649054386200000, 41686405454067044000, 42580211626465192000, 43035624667918271000, 43266219099410211000, 43382491991633416000, 43440956968860488000, 43470299803529601000, 43485008213681398000],
  [36770122591773063000, 40132119207018271000, 41886607057835812000, 42789143775515563000, 43249047639336700000, 43481930344903212000, 43599361920613228000, 43658411154242890000, 43688047772025236000, 43702903629590943000],
  [36922703845402617000, 40316351074559366000, 42087727915662176000, 42999079229133055000, 43463517777846718000, 43698711321080851000, 43817313077965603000, 43876952390112522000, 43906885726821422000, 43921890508044056000],
  [37075761588417543000, 40501347039622410000, 42289771842077349000, 43210022593119249000, 43679040111477656000, 43916567276339004000, 44036350825454498000, 44096586096004725000, 44126819116708293000, 44141974312582877000],
  [37229295738364920000, 40687109484456238000, 42492742663524770000, 43421978492378277000, 43895619691335701000, 44135503484271456000, 44256480551148780000, 44317317718329356000, 44347853417640755000, 44363160534061426000],
  [37383306193337233000, 40873640790848903000, 42696644218357928000, 43634951570976216000, 44113261591699343000, 44355525243785318000, 44477707669548505000, 44539152730502643000, 44569994132873228000, 44585454690781665000],
  [37537792831758794000, 41060943340029847000, 42901480356838009000, 43848946492200683000, 44331970910115509000, 44576637879217298000, 44700037621711819000, 44762096633079687000, 44793246793095015000, 44808862328630357000],
  [37692755512170849000, 41249019512570984000, 43107254941130609000, 44063967938620351000, 44551752767495671000, 44798846740450177000, 44923475875382327000, 44986154953887518000, 45017616956566288000, 45033389021216563000],
  [37848194073015373000, 41437871688286797000, 43313971845302446000, 44280020612144512000, 44772612308212535000, 45022157203029919000, 45148027925117198000, 45211333248158861000, 45243110209254873000, 45259040370009905000],
  [38004108332417540000, 41627502246133270000, 43521634955317148000, 44497109234082531000, 44994554700196795000, 45246574668283183000, 45373699292415706000, 45437637098666536000, 45469732164973485000, 45485822004479350000],
  [38160498087966913000, 41817913564105753000, 43730248169030782000, 44715238545203262000, 45217585135034308000, 45472104563435381000, 45600495525848481000, 45665072115858463000, 45697488465517855000, 45713739582232855000],
  [38317363116497201000, 42009108019135794000, 43939815396186750000, 44934413305794639000, 45441708828063587000, 45698752341729244000, 45828422201187255000, 45893643937993410000, 45926384780805483000, 45942798789157593000],
  [38474703173864894000, 42201087986986713000, 44150340558410307000, 45154638295722992000, 45666931018473453000, 45926523482543731000, 46057484921535254000, 46123358231277244000, 46156426809014897000, 46173005339560938000],
  [38632517994726424000, 42393855842148193000, 44361827589202298000, 45375918314492426000, 45893256969401205000, 46155423491513574000, 46287689317458212000, 46354220689999913000, 46387620276725827000, 46404364976312062000],
  [38790807292314128000, 42587413957729782000, 44574280433932661000, 45598258181304321000, 46120691968030779000, 46385457900649310000, 46519041047115926000, 46586237036673236000, 46619970939059979000, 46636883470984374000],
  [38949570758210740000, 42781764705353130000, 44787703049833164000, 45821662735116467000, 46349241325691549000, 46616632268457678000, 46751545796394428000, 46819413022168979000, 46853484579822413000, 46870566623998508000],
  [39108808062122843000, 42976910455043212000, 45002099405989780000, 46046136834702496000, 46578910377957188000, 46848952180062610000, 46985209279038757000, 47053754425857984000, 47088167011643804000, 47105420264766162000],
  [39268518851652764000, 43172853575118353000, 45217473483334381000, 46271685358711082000, 46809704484744905000, 47082423247326824000, 47220037236786395000, 47289267055749727000, 47324024076123149000, 47341450251834519000],
  [39428702752069278000, 43369596432079188000, 45433829274635948000, 46498313205725172000, 47041629030414943000, 47317051108973579000, 47456035439501248000, 47525956748632629000, 47561061643971426000, 47578662473031462000],
  [39589359366077104000, 43567141390496361000, 45651170784491123000, 46726025294321107000, 47274689423870420000, 47552841430709314000, 47693209685308185000, 47763829370215040000, 47799285615155770000, 47817062845611553000],
  [39750488273584871000, 43765490812897129000, 45869502029314405000, 46954826563127793000, 47508891098657455000, 47789799905346528000, 47931565800728396000, 48002890815266895000, 48038701919044462000, 48056657316402622000],
  [39912089031472045000, 43964647059650856000, 46088827037327564000, 47184721970885656000, 47744239513065577000, 48027932252927286000, 48171109640815120000, 48243147007761930000, 48279316514552618000, 48297451861953132000],
  [40074161173354453000, 44164612488853221000, 46309149848548531000, 47415716496505819000, 47980740150228372000, 48267244220847140000, 48411847089290132000, 48484603901020829000, 48521135390288468000, 48539452488680281000],
  [40236704209348446000, 44365389456209298000, 46530474514779901000, 47647815139128920000, 48218398518224584000, 48507741583979642000, 48653784058680823000, 48727267477854830000, 48764164564700542000, 48782665233018892000],
  [40399717625833970000, 44566980314915572000, 46752805099596416000, 47881022918184017000, 48457220150179330000, 48749430144801334000, 48896926490457931000, 48971143750710086000, 49008410086225473000, 49027096161570881000],
  [40563200885216269000, 44769387415540540000, 46976145678332443000, 48115344873447492000, 48697210604365701000, 48992315733517179000, 49141280355173851000, 49216238761812747000, 49253878033436470000, 49272751371255669000],
  [40727153425686197000, 44972613105904301000, 47200500338068281000, 48350786065101743000, 48938375464306724000, 49236404208186577000, 49386851652601545000, 49462558583314768000, 49500574515192672000, 49519636989461206000]]

/-- Rows from 1400 on. -/
def skRows14 : List (List Nat) := [
  [40891574660979521000, 45176659730956886000, 47425873177616221000, 48587351573793944000, 49180720338877396000, 49481701454849952000, 49633646411874219000, 49710109317440285000, 49748505670789062000, 49767759174195708000],
  [41056463980134690000, 45381529632655321000, 47652268307505852000, 48825046500694573000, 49424250862407267000, 49728213387655609000, 49881670691625461000, 49958897096632739000, 49997677670107245000, 50017124114240329000],
  [41221820747249574000, 45587225149839629000, 47879689849968828000, 49063875967556056000, 49668972694783195000, 49975945948987424000, 50130930580130163000, 50208928083702885000, 50248096713766906000, 50267738029302386000],
  [41387644301236884000, 45793748618107422000, 48108141938922967000, 49303845116771182000, 49914891521552346000, 50224905109592738000, 50381432195445941000, 50460208471977151000, 50499769033277998000, 50519607170169442000],
  [41553933955578166000, 46001102369687394000, 48337628719955693000, 49544959111431496000, 50162013054025581000, 50475096868711086000, 50633181685555403000, 50712744485447062000, 50752700891193693000, 50772737818864183000],
  [41720688998076870000, 46209288733311628000, 48568154350306862000, 49787223135385687000, 50410343029381070000, 50726527254203110000, 50886185228508837000, 50966542378919177000, 51006898581264157000, 51027136288799985000],
  [41887908690610001000, 46418310034086412000, 48799722998850999000, 50030642393297672000, 50659887210768292000, 50979202322680259000, 51140449032567564000, 51221608438165735000, 51262368428590867000, 51282808924937258000],
  [42055592268878499000, 46628168593362149000, 49032338846078848000, 50275222110704787000, 50910651387412131000, 51233128159634843000, 51395979336348235000, 51477948980076113000, 51519116789781938000, 51539762103940658000],
  [42223738942156523000, 46838866728601762000, 49266006084078197000, 50520967534075839000, 51162641374717523000, 51488310879570759000, 51652782408967347000, 51735570352808985000, 51777150053107991000, 51798002234336941000],
  [42392347893039438000, 47050406753247953000, 49500728916514171000, 50767883930869048000, 51415863014374168000, 51744756626134543000, 51910864550186779000, 51994478935945145000, 52036474638659021000, 52057535756673733000],
  [42561418277190698000, 47262790976589170000, 49736511558608823000, 51015976589589854000, 51670322174461665000, 52002471572247154000, 52170232090559723000, 52254681140641142000, 52297096998501706000, 52318369143678961000],
  [42730949223087365000, 47476021703624360000, 49973358237119882000, 51265250819848611000, 51926024749554871000, 52261461920236126000, 52430891391577486000, 52516183409783514000, 52559023616837827000, 52580508900421201000],
  [42900939831764573000, 47690101234926306000, 50211273190319157000, 51515711952418317000, 52182976660829578000, 52521733901968272000, 52692848845816757000, 52778992218143972000, 52822261010163206000, 52843961564470625000],
  [43071389176558783000, 47905031866503828000, 50450260667969947000, 51767365339292000000, 52441183856168465000, 52783293778983109000, 52956110877087730000, 53043114072535077000, 53086815727427607000, 53108733706061007000],
  [43242296302849779000, 48120815889662681000, 50690324931303848000, 52020216353740253000, 52700652310267340000, 53046147842626477000, 53220683940582721000, 53308555511966872000, 53352694350195240000, 53374831928252320000],
  [43413660227801652000, 48337455590865074000, 50931470252996998000, 52274270390368416000, 52961388024741728000, 53310302414184989000, 53486574523025604000, 53575323107804135000, 53619903492806223000, 53642262867094267000],
  [43585479940102471000, 48554953251587943000, 51173700917145404000, 52529532865173756000, 53223397028233546000, 53575763845020830000, 53753789142821778000, 53843423463924373000, 53888449802538693000, 53911033191790504000],
  [43757754399702843000, 48773311148179947000, 51417021219239682000, 52786009215602551000, 53486685376518385000, 53842538516707207000, 54022334350208957000, 54112863216876646000, 54158339959771790000, 54181149604863740000],
  [43930482537553453000, 48992531551717088000, 51661435466139147000, 53043704900606940000, 53751259152612745000, 54110632841164255000, 54292216727408520000, 54383649036041107000, 54429580678149396000, 54452618842321686000],
  [44103663255341263000, 49212616727857081000, 51906947976044927000, 53302625400701749000, 54017124466881804000, 54380053260795529000, 54563442888777611000, 54655787623789309000, 54702178704744746000, 54725447673823820000],
  [44277295425224759000, 49433568936692374000, 52153563078472603000, 53562776218021045000, 54284287457147355000, 54650806248624964000, 54836019480961860000, 54929285715645197000, 54976140820225700000, 54999642902848818000],
  [44451377889568058000, 49655390432601837000, 52401285114224032000, 53824162876374801000, 54552754288795961000, 54922898308434526000, 55109953183048850000, 55204150080447038000, 55251473839021001000, 55275211366863121000],
  [44625909460673865000, 49878083464101067000, 52650118435358349000, 54086790921305063000, 54822531154887610000, 55196335974902207000, 55385250706722323000, 55480387520509926000, 55528184609487150000, 55552159937490013000],
  [44800888920515272000, 50101650273691567000, 52900067405162288000, 54350665920142288000, 55093624276264401000, 55471125813740745000, 55661918796416854000, 55758004871789231000, 55806280014076330000, 55830495520679715000],
  [44976315020466680000, 50326093097708191000, 53151136398119726000, 54615793462061392000, 55366039901659690000, 55747274421836739000, 55939964229473498000, 56037009004044618000, 56085766969504888000, 56110225056880340000],
  [45152186481033536000, 50551414166165723000, 53403329799880543000, 54882179158137624000, 55639784307807458000, 56024788427390448000, 56219393816295975000, 56317406821005139000, 56366652426922813000, 56391355521209573000],
  [45328501991580887000, 50777615702603654000, 53656652007228481000, 55149828641402318000, 55914863799551920000, 56303674490056001000, 56500214400507585000, 56599205260534802000, 56648943372084065000, 56673893923627310000],
  [45505260210061210000, 51004699923929912000, 53911107428048513000, 55418747566898498000, 56191284709957399000, 56583939301082242000, 56782432859108813000, 56882411294799082000, 56932646825517567000, 56957847309109022000],
  [45682459762740810000, 51232669040263128000, 54166700481293260000, 55688941611736320000, 56469053400418655000, 56865589583454168000, 57066056102635647000, 57167031930432308000, 57217769842699169000, 57243222757820199000],
  [45860099243925562000, 51461525254773370000, 54423435596948580000, 55960416475148260000, 56748176260771242000, 57148632092034760000, 57351091075318668000, 57453074208705573000, 57504319514224439000, 57530027385291380000],
  [46038177215685441000, 51691270763521868000, 54681317215998532000, 56233177878544267000, 57028659709402296000, 57433073613707517000, 57637544755242777000, 57740545205695763000, 57792302965982228000, 57818268342594271000],
  [46216692207578111000, 51921907755299007000, 54940349790389344000, 56507231565566633000, 57310510193361586000, 57718920967519481000, 57925424154507611000, 58029452032455110000, 58081727359329142000, 58107952816518635000],
  [46395642716371394000, 52153438411461056000, 55200537782992679000, 56782583302144654000, 57593734188472724000, 58006181004824860000, 58214736319388748000, 58319801835181713000, 58372599891264851000, 58399088029750003000],
  [46575027205765167000, 52385864905765633000, 55461885667568045000, 57059238876549311000, 57878338199444920000, 58294860609429122000, 58505488330499636000, 58611601795390877000, 58664927794608211000, 58691681241048378000],
  [46754844106111845000, 52619189404205582000, 55724397928724405000, 57337204099447453000, 58164328759984570000, 58584966697733727000, 58797687302954149000, 58904859130087112000, 58958718338174350000, 58985739745427854000],
  [46935091814136159000, 52853414064841502000, 55988079061880934000, 57616484803956043000, 58451712432907581000, 58876506218881401000, 59091340386529960000, 59199581091937112000, 59253978826952443000, 59281270874336878000],
  [47115768692654061000, 53088541037633073000, 56252933573226957000, 57897086845696076000, 58740495810251668000, 59169486154901973000, 59386454765832666000, 59495774969443437000, 59550716602284566000, 59578281995839699000],
  [47296873070290540000, 53324572464268589000, 56518965979680903000, 58179016102846322000, 59030685513389060000, 59463913520858697000, 59683037660460465000, 59793448087119123000, 59848939042045253000, 59876780514798493000],
  [47478403241196676000, 53561510477993422000, 56786180808848681000, 58462278476196915000, 59322288193139311000, 59759795364995330000, 59981096325169805000, 60092607805662973000, 60148653560821955000, 60176773873056554000],
  [47660357464765844000, 53799357203437002000, 57054582598980941000, 58746879889202595000, 59615310529882622000, 60057138768883522000, 60280638050041573000, 60393261522135880000, 60449867610096492000, 60478269549622259000],
  [47842733965348952000, 54038114756438153000, 57324175898929568000, 59032826288035911000, 59909759233673199000, 60355950847571012000, 60581670160648186000, 60695416670137732000, 60752588678427248000, 60781275060853963000],
  [48025530931968839000, 54277785243869288000, 57594965268103301000, 59320123641640098000, 60205641044353081000, 60656238749730182000, 60884200018221299000, 60999080719985409000, 61056824291632318000, 61085797960645991000],
  [48208746518033994000, 54518370763458973000, 57866955276422459000, 59608777941781703000, 60502962731666006000, 60958009657807358000, 61188235019820236000, 61304261178891421000, 61362582012973566000, 61391845840615196000],
  [48392378841051277000, 54759873403613289000, 58140150504272771000, 59898795203103067000, 60801731095371687000, 61261270788172575000, 61493782598501377000, 61610965591143499000, 61669869443341511000, 61699426330288770000],
  [48576425982338051000, 55002295243235397000, 58414555542458328000, 60190181463174494000, 61101952965360418000, 61566029391269962000, 61800850223488045000, 61919201538285021000, 61978694221441172000, 62008547097292803000],
  [48760885986733261000, 55245638351543967000, 58690174992153579000, 60482942782546352000, 61403635201767753000, 61872292751768629000, 62109445400341266000, 62228976639296232000, 62289064023978810000, 62319215847541881000],
  [48945756862308121000, 55489904787890142000, 58967013464854480000, 60777085244800570000, 61706784695089500000, 62180068188714223000, 62419575671131322000, 62540298550776377000, 62600986565849587000, 62631440325429458000],
  [49131036580075720000, 55735096601572852000, 59245075582328686000, 61072614956602371000, 62011408366297142000, 62489363055681056000, 62731248614609963000, 62853174967126724000, 62914469600326012000, 62945228314019344000],
  [49316723073700094000, 55981215831652845000, 59524365976564866000, 61369538047751311000, 62317513166953248000, 62800184740924705000, 63044471846383426000, 63167613620734350000, 63229520919247564000, 63260587635238077000],
  [49502814239204704000, 56228264506765165000, 59804889289720949000, 61667860671232415000, 62625106079327364000, 63112540667535161000, 63359253019086292000, 63483622282156843000, 63546148353211027000, 63577526150068175000],
  [49689307934679926000, 56476244644930389000, 60086650174071631000, 61967589003266724000, 62934194116511979000, 63426438293591028000, 63675599822555995000, 63801208760307870000, 63864359771761650000, 63896051758742411000],
  [49876201979990209000, 56725158253363911000, 60369653291954740000, 62268729243361895000, 63244784322538911000, 63741885112313421000, 63993519984008110000, 64120380902643700000, 64184163083585682000, 64216172400939131000],
  [50063494156480426000, 56975007328284477000, 60653903315716809000, 62571287614362286000, 63556883772495881000, 64058888652221313000, 64313021268212561000, 64441146595350537000, 64505566236703324000, 64537896055978330000],
  [50251182206681552000, 57225793854720486000, 60939404927657495000, 62875270362498917000, 63870499572643222000, 64377456477287057000, 64634111477670370000, 64763513763532551000, 64828577218662933000, 64861230743018805000],
  [50439263834016007000, 57477519806315443000, 61226162819973326000, 63180683757439016000, 64185638860531025000, 64697596187092352000, 64956798452791439000, 65087490371401338000, 65153204056736039000, 65186184521256366000],
  [50627736702502188000, 57730187145131520000, 61514181694700083000, 63487534092335526000, 64502308805116343000, 65019315416985191000, 65281090072072862000, 65413084422465392000, 65479454818113472000, 65512765490122873000],
  [50816598436458554000, 57983797821451889000, 61803466263654572000, 63795827683875983000, 64820516606880901000, 65342621838237150000, 65606994252278339000, 65740303959721566000, 65807337610102254000, 65840981789486386000],
  [51005846620207122000, 58238353773581407000, 62094021248375063000, 64105570872331250000, 65140269497948725000, 65667523158201166000, 65934518948617876000, 66069157065846346000, 66136860580323392000, 66170841599852148000],
  [51195478797776625000, 58493856927645992000, 62385851380061051000, 64416770021604230000, 65461574742204348000, 65994027120470242000, 66263672154928940000, 66399651863388962000, 66468031916910947000, 66502353142564738000],
  [51385492472605071000, 58750309197390299000, 62678961399511790000, 64729431519277694000, 65784439635410891000, 66322141505036472000, 66594461903857829000, 66731796514964623000, 66800859848711869000, 66835524680011096000],
  [51575885107241794000, 59007712483974101000, 62973356057063820000, 65043561776662415000, 66108871505328765000, 66651874128450569000, 66926896267042096000, 67065599223449235000, 67135352645486659000, 67170364515824657000],
  [51766654123049191000, 59266068675767052000, 63269040112527694000, 65359167228844439000, 66434877711834261000, 66983232843982388000, 67260983355293902000, 67401068232174760000, 67471518618111265000, 67506880995090196000],
  [51957796899904124000, 59525379648142050000, 63566018335123292000, 65676254334732495000, 66762465647038818000, 67316225541781710000, 67596731318783757000, 67738211825125474000, 67809366118779912000, 67845082504550291000],
  [52149310775898683000, 59785647263267086000, 63864295503414520000, 65994829577104758000, 67091642735407853000, 67650860149039690000, 67934148347225526000, 68077038327135367000, 68148903541208755000, 68184977472812047000],
  [52341193047040963000, 60046873369895407000, 64163876405242654000, 66314899462655438000, 67422416433880625000, 67987144630150959000, 68273242670061934000, 68417556104086272000, 68490139320840665000, 68526574370555496000],
  [52533440966955107000, 60309059803154548000, 64464765837658713000, 66636470522041066000, 67754794231989587000, 68325086986876185000, 68614022556651083000, 68759773563106794000, 68833081935050888000, 68869881710742514000],
  [52726051746581598000, 60572208384333609000, 64766968606854922000, 66959549309926272000, 68088783651980608000, 68664695258505548000, 68956496316453564000, 69103699152772660000, 69177739903353949000, 69214908048827239000],
  [52919022553876545000, 60836320920668985000, 65070489528094883000, 67284142405029293000, 68424392248932986000, 69005977522022519000, 69300672299220628000, 69449341363307493000, 69524121787611179000, 69561661982967080000],
  [53112350513511583000, 61101399205128790000, 65375333425642709000, 67610256410167366000, 68761627610879728000, 69348941892268159000, 69646558895183008000, 69796708726784756000, 69872236192239687000, 69910152154235031000],
  [53306032706572831000, 61367445016195656000, 65681505132691415000, 67937897952301179000, 69100497358928398000, 69693596522106410000, 69994164535240613000, 70145809817330637000, 70222091764421901000, 70260387246833103000],
  [53500066170260117000, 61634460117648095000, 65989009491289594000, 68267073682579782000, 69441009147381744000, 70039949602589677000, 70343497691153126000, 70496653251328048000, 70573697194316498000, 70612375988306497000],
  [53694447897585866000, 61902446258340224000, 66297851352267553000, 68597790276384324000, 69783170663858834000, 70388009363125170000, 70694566875731224000, 70849247687621103000, 70927061215270093000, 70966127149759070000],
  [53889174837073971000, 62171405171980131000, 66608035575162192000, 68930054433371940000, 70126989629416325000, 70737784071641663000, 71047380643028957000, 71203601827721064000, 71282192604030126000, 71321649546069885000],
  [54084243892458445000, 62441338576906688000, 66919567028140475000, 69263872877519048000, 70472473798669930000, 71089282034757090000, 71401947588536560000, 71559724416012840000, 71639100180958676000, 71678952036110660000],
  [54279651922382148000, 62712248175864876000, 67232450587922293000, 69599252357164312000, 70819630959916086000, 71442511597946567000, 71758276349374608000, 71917624239963063000, 71997792810247360000, 72038043522964404000],
  [54475395740095439000, 62984135655779441000, 67546691139701714000, 69936199645051239000, 71168468935254067000, 71797481145711273000, 72116375604488261000, 72277310130328176000, 72358279400133355000, 72398932954145123000],
  [54671472113154720000, 63257002687527375000, 67862293577067467000, 70274721538370277000, 71518995580707762000, 72154199101747529000, 72476254074843399000, 72638790961364455000, 72720568903116123000, 72761629321818538000],
  [54867877763121263000, 63530850925708510000, 68179262801922089000, 70614824858800718000, 71871218786348348000, 72512673929116880000, 72837920523622562000, 73002075651038403000, 73084670316175729000, 73126141663024044000],
  [55064609365259941000, 63805682008414882000, 68497603724399780000, 70956516452551854000, 72225146476416674000, 72872914130416591000, 73201383756422378000, 73367173161238447000, 73450592680991716000, 73492479059897503000],
  [55261663548237992000, 64081497556998532000, 68817321262783712000, 71299803190404215000, 72580786609446127000, 73234928247950845000, 73566652621451692000, 73734092497987402000, 73818345084163337000, 73860650639895470000],
  [55459036893824205000, 64358299175837644000, 69138420343421256000, 71644691967749793000, 72938147178385315000, 73598724863902440000, 73933736009730466000, 74102842711656111000, 74187936657430759000, 74230665576020233000],
  [55656725936587874000, 64636088452101462000, 69460905900638872000, 71991189704632363000, 73297236210721581000, 73964312600505219000, 74302642855289674000, 74473432897177894000, 74559376577897310000, 74602533087046050000],
  [55854727163598419000, 64914866955513364000, 69784782876655280000, 72339303345787170000, 73658061768604149000, 74331700120217087000, 74673382135371891000, 74845872194264265000, 74932674068252769000, 74976262437746591000],
  [56053037014124889000, 65194636238112738000, 70110056221493730000, 72689039860679996000, 74020631948967755000, 74700896125893590000, 75045962870632990000, 75220169787621291000, 75307838396997992000, 75351862939123451000],
  [56251651879335916000, 65475397834015181000, 70436730892893012000, 73040406243546074000, 74384954883656318000, 75071909360962141000, 75420394125344320000, 75596334907167370000, 75684878878670231000, 75729343948635675000],
  [56450568101999950000, 65757153259171322000, 70764811856217122000, 73393409513428501000, 74751038739547013000, 75444748609596976000, 75796685007596384000, 75974376828251630000, 76063804874069829000, 76108714870430555000],
  [56649781976185795000, 66039904011123862000, 71094304084363874000, 73748056714215984000, 75118891718674183000, 75819422696894512000, 76174844669502612000, 76354304871873738000, 76444625790487872000, 76489985155575604000],
  [56849289746963766000, 66323651568763631000, 71425212557672313000, 74104354914680412000, 75488522058353991000, 76195940489049457000, 76554882307404593000, 76736128404904319000, 76827351081935100000, 76873164302291339000],
  [57049087610106929000, 66608397392083629000, 71757542263828827000, 74462311208513848000, 75859938031308666000, 76574310893531658000, 76936807162078139000, 77119856840306727000, 77211990249371726000, 77258261856185742000],
  [57249171711793098000, 66894142921931812000, 72091298197771880000, 74821932714364742000, 76233147945791224000, 76954542859263245000, 77320628518939796000, 77505499637359698000, 77598552840938473000, 77645287410489441000],
  [57449538148307167000, 67180889579762454000, 72426485361595974000, 75183226575874423000, 76608160145710452000, 77336645376796728000, 77706355708254876000, 77893066301881170000, 77987048452188637000, 78034250606292085000],
  [57650182965744111000, 67468638767385972000, 72763108764453702000, 75546199961712163000, 76984983010755917000, 77720627478493676000, 78093998105345799000, 78282566386452840000, 78377486726321541000, 78425161132780252000],
  [57851102159712516000, 67757391866717046000, 73101173422457200000, 75910860065610541000, 77363624956523075000, 78106498238703664000, 78483565130801791000, 78674009490646124000, 78769877354416692000, 78818028727476022000],
  [58052291675038760000, 68047150239521598000, 73440684358577896000, 76277214106400010000, 77744094434638866000, 78494266773944249000, 78875066250689005000, 79067405261249141000, 79164230075669501000, 79212863176477105000],
  [58253747405471908000, 68337915227162233000, 73781646602545103000, 76645269328042540000, 78126399932887211000, 78883942243081664000, 79268510976762158000, 79462763392494265000, 79560554677627737000, 79609674314697981000],
  [58455465193389157000, 68629688150341789000, 74124065190743382000, 77015032999665597000, 78510549975334659000, 79275533847511556000, 79663908866676417000, 79860093626287390000, 79958860996429487000, 80008472026112207000],
  [58657440829502305000, 68922470308846087000, 74467945166108676000, 77386512415594993000, 78896553122456456000, 79669050831340946000, 80061269524200687000, 80259405752437923000, 80359158917041998000, 80409266243996039000],
  [58859670052564775000, 69216262981284707000, 74813291578023008000, 77759714895387341000, 79284417971262455000, 80064502481570349000, 80460602599431552000, 80660709608889755000, 80761458373501807000, 80812066951173087000],
  [59062148549079714000, 69511067424830500000, 75160109482208012000, 78134647783862129000, 79674153155423519000, 80461898128277226000, 80861917789008225000, 81064015081953669000, 81165769349156022000, 81216884180260421000],
  [59264871953008690000, 69806884874957578000, 75508403940616933000, 78511318451132892000, 80065767345397762000, 80861247144799003000, 81265224836328406000, 81469332106540268000, 81572101876904640000, 81623728013915500000]]

/-- Rows from 1500 on. -/
def skRows15 : List (List Nat) := [
  [59467835845481688000, 70103716545177858000, 75858180021325730000, 78889734292638569000, 80459269248557258000, 81262558947917868000, 81670533531764899000, 81876670666394646000, 81980466039444241000, 82032608585084779000],
  [59671035754507745000, 70401563626776395000, 76209442798422400000, 79269902729173281000, 80854667609314562000, 81665842998045302000, 82077853712883619000, 82286040794331550000, 82390871969512766000, 82443536077253146000],
  [59874467154686875000, 70700427288544587000, 76562197351895150000, 79651831206916518000, 81251971209249721000, 82071108799407697000, 82487195264661778000, 82697452572472088000, 82803329850135263000, 82856520724694807000],
  [60078125466922913000, 71000308676513080000, 76916448767519546000, 80035527197462278000, 81651188867237129000, 82478365900232595000, 82898568119707805000, 83110916132481102000, 83217849914871286000, 83271572812725334000],
  [60282006058137473000, 71301208913681913000, 77272202136743712000, 80420998197847551000, 82052329439572774000, 82887623892935372000, 83311982258481576000, 83526441655806166000, 83634442448062965000, 83688702677954932000],
  [60486104240985293000, 71603129099750293000, 77629462556572632000, 80808251730580538000, 82455401820101554000, 83298892414306699000, 83727447709515915000, 83944039373917131000, 84053117785084688000, 84107920708542963000],
  [60690415273570539000, 71906070310844478000, 77988235129450995000, 81197295343668166000, 82860414940344559000, 83712181145700601000, 84144974549638971000, 84363719568547213000, 84473886312593685000, 84529237344453848000],
  [60894934359164384000, 72210033599244175000, 78348524963144706000, 81588136610642917000, 83267377769626769000, 84127499813223219000, 84564572904197444000, 84785492571935003000, 84896758468782058000, 84952663077713944000],
  [61099656645924268000, 72515019993107929000, 78710337170620717000, 81980783130589097000, 83676299315204650000, 84544858187922053000, 84986252947280780000, 85209368767067473000, 85321744743629913000, 85378208452670024000],
  [61304577226613956000, 72821030496196523000, 79073676869925988000, 82375242528168691000, 84087188622394074000, 84964266085975973000, 85410024901946505000, 85635358587924523000, 85748855679159547000, 85805884066248617000],
  [61509691138325620000, 73128066087595617000, 79438549184064705000, 82771522453646260000, 84500054774698213000, 85385733368885858000, 85835899040446251000, 86063472519724071000, 86178101869691312000, 86235700568217166000],
  [61714993362202833000, 73436127721436609000, 79804959240874190000, 83169630582913642000, 84914906893935549000, 85809269943665833000, 86263885684452771000, 86493721099168877000, 86609493962100145000, 86667668661445887000],
  [61920478823165516000, 73745216326616014000, 80172912172899471000, 83569574617513603000, 85331754140368296000, 86234885763035216000, 86693995205288157000, 86926114914694014000, 87043042656073724000, 87101799102171279000],
  [62126142389636214000, 74055332806513996000, 80542413117266440000, 83971362284663106000, 85750605712830316000, 86662590825610897000, 87126238024152688000, 87360664606715835000, 87478758704371828000, 87538102700260995000],
  [62331978873268121000, 74366478038710923000, 80913467215553342000, 84375001337275990000, 86171470848856027000, 87092395176100762000, 87560624612354990000, 87797380867881789000, 87916652913086688000, 87976590319479547000],
  [62537983028674748000, 74678652874702919000, 81286079613661397000, 84780499553984867000, 86594358824808593000, 87524308905497283000, 87997165491542767000, 88236274443321647000, 88356736141904965000, 88417272877755818000],
  [62744149553161349000, 74991858139616105000, 81660255461683512000, 85187864739162372000, 87019278956008708000, 87958342151272240000, 88435871233934815000, 88677356130899859000, 88799019304370660000, 88860161347451797000],
  [62950473086458000000, 75306094631919174000, 82035999913771543000, 85597104722941755000, 87446240596863248000, 88394505097571435000, 88876752462553901000, 89120636781468698000, 89243513368149466000, 89305266755632162000],
  [63156948210454894000, 75621363123135180000, 82413318128002511000, 86008227361236908000, 87875253140994355000, 88832807975410932000, 89319819851460619000, 89566127299123166000, 89690229355294318000, 89752600184336007000],
  [63363569448939033000, 75937664357551254000, 82792215266243210000, 86421240535761723000, 88306326021368051000, 89273261062873061000, 89765084125988229000, 90013838641456609000, 90139178342512324000, 90202172770849021000],
  [63570331267333302000, 76254999051927772000, 83172696494012946000, 86836152154048454000, 88739468710423583000, 89715874685303690000, 90212556062978469000, 90463781819817762000, 90590371461432714000, 90653995707977691000],
  [63777228072437395000, 76573367895205788000, 83554766980345641000, 87252970149466050000, 89174690720202468000, 90160659215509739000, 90662246491018395000, 90915967899568725000, 91043819898876596000, 91108080244324610000],
  [63984254212170771000, 76892771548213265000, 83938431897649601000, 87671702481236874000, 89612001602477565000, 90607625073957782000, 91114166290678117000, 91370408000344572000, 91499534897127255000, 91564437684564876000],
  [64191403975317946000, 77213210643369945000, 84323696421566424000, 88092357134453514000, 90051410948882596000, 91056782728972663000, 91568326394749697000, 91827113296313420000, 91957527754202448000, 92023079389724274000],
  [64398671591275616000, 77534685784391183000, 84710565730828150000, 88514942120094739000, 90492928391041505000, 91508142696937453000, 92024737788486924000, 92286095016438710000, 92417809824127742000, 92484016777458669000],
  [64606051229802564000, 77857197545990395000, 85099045007113044000, 88939465475040141000, 90936563600697740000, 91961715542493494000, 92483411509845875000, 92747364444741520000, 92880392517210877000, 92947261322334482000],
  [64813537000771165000, 78180746473580046000, 85489139434899802000, 89365935262085014000, 91382326289844093000, 92417511878741462000, 92944358649727082000, 93210932920565218000, 93345287300318047000, 93412824556111135000],
  [65021122953922247000, 78505333082971862000, 85880854201320286000, 89794359569953547000, 91830226210852003000, 92875542367442915000, 93407590352218114000, 93676811838840315000, 93812505697150994000, 93880718068024172000],
  [65228803078621375000, 78830957860075379000, 86274194496010814000, 90224746513311999000, 92280273156601450000, 93335817719222447000, 93873117814837384000, 94145012650351426000, 94282059288525594000, 94350953505070487000],
  [65436571303618213000, 79157621260595348000, 86669165510961890000, 90657104232780741000, 92732476960610696000, 93798348693770586000, 94340952288779020000, 94615546862004754000, 94753959712651770000, 94823542572294292000],
  [65644421496808464000, 79485323709728675000, 87065772440366326000, 91091440894945711000, 93186847497165798000, 94263146100047338000, 94811105079158728000, 95088426037097079000, 95228218665414990000, 95298497033074997000],
  [65852347464998184000, 79814065601858650000, 87464020480466032000, 91527764692368965000, 93643394681450914000, 94730220796486339000, 95283587545260520000, 95563661795586327000, 95704847900658710000, 95775828709416158000],
  [66060342953670928000, 80143847300249635000, 87863914829397191000, 91966083843598501000, 94102128469677873000, 95199583691199616000, 95758411100784757000, 96041265814362495000, 96183859230468294000, 96255549482236094000],
  [66268401646757694000, 80474669136739577000, 88265460687033906000, 92406406593177476000, 94563058859216176000, 95671245742183136000, 96235587214097001000, 96521249827520916000, 96665264525456596000, 96737671291659680000],
  [66476517166409524000, 80806531411431709000, 88668663254830180000, 92848741211652500000, 95026195888723172000, 96145217957522899000, 96715127408477847000, 97003625626635670000, 97149075715050423000, 97222206137311862000],
  [66684683072773254000, 81139434392385051000, 89073527735660615000, 93293095995580902000, 95491549638273845000, 96621511395601614000, 97197043262374119000, 97488405061035274000, 97635304787778682000, 97709166078612256000],
  [66892892863769926000, 81473378315304101000, 89480059333659268000, 93739479267537798000, 95959130229491069000, 97100137165306258000, 97681346409650607000, 97975600038078814000, 98123963791562088000, 98198563235071590000],
  [67101139974876461000, 81808363383226529000, 89888263254057243000, 94187899376121584000, 96428947825675612000, 97581106426235978000, 98168048539843233000, 98465222523433718000, 98615064834003563000, 98690409786589120000],
  [67309417778910322000, 82144389766211329000, 90298144703018585000, 94638364695959376000, 96901012631936401000, 98064430388910953000, 98657161398413171000, 98957284541354884000, 99108620082680898000, 99184717973752154000],
  [67517719585817162000, 82481457601024058000, 90709708887474413000, 95090883627711051000, 97375334895320437000, 98550120314981671000, 99148696787001958000, 99451798174964898000, 99604641765440136000, 99681500098136214000],
  [67726038642462169000, 82819566990822671000, 91122961014955844000, 95545464598072644000, 97851924904943224000, 99038187517439064000, 99642666563687587000, 99948775566535392000, 100103142170690680000, 100180768522607460000],
  [67934368132424122000, 83158718004841203000, 91537906293425050000, 96002116059779041000, 98330792992118762000, 99528643360824828000, 100139082643241830000, 100448228917770210000, 100604133647701750000, 100682535671626160000],
  [68142701175793421000, 83498910678072885000, 91954549931104967000, 96460846491605717000, 98811949530489926000, 100021499261443380000, 100637956997388480000, 100950170490089110000, 101107628606900330000, 101186814031551540000],
  [68351030828972884000, 83840145010952452000, 92372897136307239000, 96921664398369453000, 99295404936158432000, 100516766687573050000, 101139301655062710000, 101454612604913600000, 101613639520170290000, 101693616150948660000],
  [68559350084482523000, 84182420969036831000, 92792953117258589000, 97384578310928491000, 99781169667815320000, 101014457159679360000, 101643128702671420000, 101961567643953270000, 102122178921153290000, 102202954640896130000],
  [68767651870767971000, 84525738482685575000, 93214723081925674000, 97849596786181714000, 100269254226870910000, 101514582250627980000, 102149450284354830000, 102471048049494040000, 102633259405550810000, 102714842175295900000],
  [68975929052012150000, 84870097446739831000, 93638212237838261000, 98316728407066692000, 100759669157585230000, 102017153585898590000, 102658278602248800000, 102983066324687430000, 103146893631427760000, 103229291491184140000],
  [69184174427950898000, 85215497720200553000, 94063425791910918000, 98785981782557236000, 101252425047197960000, 102522182843799770000, 103169625916748730000, 103497635033841100000, 103663094319517700000, 103746315389043870000],
  [69392380733692485000, 85561939125905997000, 94490368950262818000, 99257365547659807000, 101747532526058860000, 103029681755683760000, 103683504546773960000, 104014766802711000000, 104181874253529090000, 104265926733119140000],
  [69600540639540714000, 85909421450208051000, 94919046918036459000, 99730888363409084000, 102245002267757680000, 103539662106162810000, 104199926870033750000, 104534474318794450000, 104703246280453540000, 104788138451730660000],
  [69808646750822392000, 86257944442647547000, 95349464899214018000, 100206558916862740000, 102744844989254490000, 104052135733325400000, 104718905323293910000, 105056770331624860000, 105227223310875000000, 105312963537592830000],
  [70016691607718340000, 86607507815629328000, 95781628096432717000, 100684385921094870000, 103247071451009640000, 104567114528953520000, 105240452402644930000, 105581667653067720000, 105753818319280820000, 105840415048132630000],
  [70224667685098857000, 86958111244095943000, 96215541710798311000, 101164378115189200000, 103751692457113940000, 105084610438740460000, 105764580663770870000, 106109179157617780000, 106283044344374190000, 106370506105810020000],
  [70432567392363088000, 87309754365200595000, 96651210941696986000, 101646544264230670000, 104258718855418560000, 105604635462509380000, 106291302722219480000, 106639317782697780000, 106814914489387860000, 106903249898439500000],
  [70640383073282978000, 87662436777979441000, 97088640986605371000, 102130893159296450000, 104768161537665010000, 106127201654432280000, 106820631253673370000, 107172096528958450000, 107349441922399760000, 107438659679513760000],
  [70848107005851202000, 88016158043023263000, 97527837040899554000, 102617433617445960000, 105280031439615280000, 106652321123249900000, 107352578994222420000, 107707528460579810000, 107886639876649660000, 107976748768528740000],
  [71055731402133712000, 88370917682147901000, 97968804297661416000, 103106174481709860000, 105794339541181670000, 107180006032492170000, 107887158740637020000, 108245626705573890000, 108426521650857770000, 108517530551310040000],
  [71263248408126728000, 88726715178064575000, 98411547947484634000, 103597124621077990000, 106311096866556310000, 107710268600699110000, 108424383350642680000, 108786404456088930000, 108969100609544530000, 109061018480341260000],
  [71470650103618139000, 89083549974048798000, 98856073178277812000, 104090292930486630000, 106830314484341260000, 108243121101642750000, 108964265743195630000, 109329874968714670000, 109514390183352090000, 109607226075093840000],
  [71677928502053775000, 89441421473609478000, 99302385175066801000, 104585688330804440000, 107352003507678100000, 108778575864549480000, 109506818898759460000, 109876051564789310000, 110062403869367320000, 110156166922358260000],
  [71885075550408156000, 89800329040156376000, 99750489119794672000, 105083319768817520000, 107876175094377520000, 109316645274322820000, 110052055859582970000, 110424947630707760000, 110613155231446240000, 110707854676577390000],
  [72092083129060472000, 90160271996667846000, 100200390191120700000, 105583196217213720000, 108402840447048970000, 109857341771767510000, 110599989729979230000, 110976576618231150000, 111166657900540270000, 111262303060180850000],
  [72298943051674697000, 90521249625357431000, 100652093564217380000, 106085326674565370000, 108932010813229970000, 110400677853813510000, 111150633676605400000, 111530952044797950000, 111722925575023460000, 111819525863921510000],
  [72505647065085402000, 90883261167339732000, 101105604410565560000, 106589720165311680000, 109463697485515670000, 110946666073740980000, 111704000928744180000, 112088087493836380000, 112281972021022180000, 112379536947213340000],
  [72712186849188315000, 91246305822296578000, 101560927897748190000, 107096385739739490000, 109997911801687980000, 111495319041406120000, 112260104778586040000, 112647996615078220000, 112843811072745340000, 112942350238470990000],
  [72918554016835654000, 91610382748141414000, 102018069189242460000, 107605332473963450000, 110534665144844790000, 112046649423467180000, 112818958581512570000, 113210693124874060000, 113408456632817010000, 113507979735451040000],
  [73124740113737499000, 91975491060684228000, 102477033444209960000, 108116569469904790000, 111073968943529210000, 112600669943611430000, 113380575756381150000, 113776190806509900000, 113975922672610250000, 114076439505595030000],
  [73330736618367531000, 92341629833295524000, 102937825817285250000, 108630105855269460000, 111615834671858290000, 113157393382782830000, 113944969785810730000, 114344503510525410000, 114546223232582480000, 114647743686373770000],
  [73536534941874718000, 92708798096569886000, 103400451458363200000, 109145950783524740000, 112160273849652130000, 113716832579410070000, 114512154216468420000, 114915645155033320000, 115119372422612720000, 115221906485633920000],
  [73742126428000487000, 93076994837989147000, 103864915512383760000, 109664113433875140000, 112707298042562420000, 114279000429635510000, 115082142659357790000, 115489629726040430000, 115695384422340040000, 115798942181945680000],
  [73947502353000905000, 93446219001585187000, 104331223119115940000, 110184603011236880000, 113256918862201290000, 114843909887544530000, 115654948790107820000, 116066471277769910000, 116274273481504030000, 116378865124952620000],
  [74152653925574893000, 93816469487602347000, 104799379412939580000, 110707428746211920000, 113809147966269590000, 115411573965395820000, 116230586349263390000, 116646183932985380000, 116856053920286580000, 116961689735723020000],
  [74357572286798360000, 94187745152159247000, 105269389522625520000, 111232599895059850000, 114363997058685290000, 115982005733852050000, 116809069142576370000, 117228781883316010000, 117440740129655430000, 117547430507102690000],
  [74562248510063517000, 94560044806910923000, 105741258571114130000, 111760125739669980000, 114921477889711900000, 116555218322211290000, 117390411041298670000, 117814279389583350000, 118028346571709300000, 118136102004070250000],
  [74766673601024444000, 94933367218709944000, 106214991675292360000, 112290015587531020000, 115481602256086170000, 117131224918639030000, 117974625982475520000, 118402690782129620000, 118618887780024700000, 118727718864093110000],
  [74970838497548681000, 95307711109267682000, 106690593945768510000, 112822278771700620000, 116044382001146460000, 117710038770400880000, 118561727969240820000, 118994030461147270000, 119212378360004310000, 119322295797486110000],
  [75174734069674690000, 95683075154815292000, 107168070486646030000, 113356924650773250000, 116609829014960110000, 118291673184095970000, 119151731071112990000, 119588312897010340000, 119808832989227180000, 119919847587771400000],
  [75378351119575554000, 96059457985764610000, 107647426395295020000, 113893962608847270000, 117177955234451280000, 118876141525890860000, 119744649424292140000, 120185552630607050000, 120408266417800240000, 120520389092040120000],
  [75581680381528585000, 96436858186368352000, 108128666762122520000, 114433402055490390000, 117748772643528320000, 119463457221754030000, 120340497231958830000, 120785764273673850000, 121010693468711910000, 121123935241316070000],
  [75784712521891992000, 96815274294381137000, 108611796670340520000, 114975252425704720000, 118322293273210910000, 120053633757691370000, 120939288764573330000, 121388962509131310000, 121616129038187190000, 121730501040920950000],
  [75987438139086969000, 97194704800719248000, 109096821195732950000, 115519523179889630000, 118898529201757390000, 120646684679981820000, 121541038360176480000, 121995162091420990000, 122224588096044170000, 122340101570841340000],
  [76189847763587198000, 97575148149121438000, 109583745406420600000, 116066223803804780000, 119477492554791440000, 121242623595413990000, 122145760424691860000, 122604377846844330000, 122836085686052780000, 122952751986097690000],
  [76391931857914042000, 97956602735808682000, 110072574362624120000, 116615363808530370000, 120059195505428890000, 121841464171523280000, 122753469432228560000, 123216624673902670000, 123450636926294830000, 123568467517114940000],
  [76593680816639143000, 98339066909145123000, 110563313116425910000, 117166952730427700000, 120643650274404160000, 122443220136829710000, 123364179925385860000, 123831917543638990000, 124068257009525770000, 124187263470095000000],
  [76795084966393409000, 98722538969297349000, 111055966711529790000, 117721000131097470000, 121230869130196580000, 123047905281076220000, 123977906515558540000, 124450271499981220000, 124688961203538350000, 124809155227390830000],
  [76996134565882751000, 99107017167895814000, 111550540183019210000, 118277515597337620000, 121820864389156560000, 123655533455467790000, 124594663883243640000, 125071701660086770000, 125312764851527980000, 125434158247883010000],
  [77196819805911046000, 99492499707694346000, 112047038557113660000, 118836508741099330000, 122413648415631280000, 124266118572911130000, 125214466778348380000, 125696223214689040000, 125939683372459500000, 126062288067357000000],
  [77397130809409867000, 99878984742231239000, 112545466850923590000, 119397989199442290000, 123009233622090620000, 124879674608254910000, 125837330020499320000, 126323851428444990000, 126569732261436140000, 126693560298883570000],
  [77597057631475411000, 100266470375489900000, 113045830072203410000, 119961966634488400000, 123607632469252310000, 125496215598530720000, 126463268499352520000, 126954601640284800000, 127202927090070080000, 127327990633200050000],
  [77796590259412629000, 100654954661559650000, 113548133219102770000, 120528450733374430000, 124208857466207400000, 126115755643194600000, 127092297174905360000, 127588489263762620000, 127839283506854450000, 127965594839093810000],
  [77995718612786522000, 101044435604296990000, 114052381279916380000, 121097451208203340000, 124812921170544770000, 126738308904369180000, 127724431077808680000, 128225529787409060000, 128478817237537350000, 128606388763787580000],
  [78194432543481018000, 101434911156986950000, 114558579232831980000, 121668977795994500000, 125419836188476490000, 127363889607086890000, 128359685309681610000, 128865738775085200000, 129121544085497950000, 129250388333327170000],
  [78392721835765219000, 101826379222005020000, 115066732045676540000, 122243040258632340000, 126029615174961580000, 127992512039532490000, 128998075043425810000, 129509131866338500000, 129767479932123480000, 129897609552969580000],
  [78590576206367002000, 102218837650479000000, 115576844675660860000, 122819648382813980000, 126642270833830810000, 128624190553287970000, 129639615523542450000, 130155724776759660000, 130416640737189230000, 130548068507574940000],
  [78787985304554664000, 102612284241951870000, 116088922069122680000, 123398811979995550000, 127257815917910240000, 129258939563576900000, 130284322066449580000, 130805533298341520000, 131069042539238960000, 131201781361998920000],
  [78984938712225727000, 103006716744044240000, 116602969161267760000, 123980540886337160000, 127876263229144860000, 129896773549509790000, 130932210060800940000, 131458573299839370000, 131724701455968400000, 131858764361487580000],
  [79181425944004513000, 103402132852118120000, 117118990875909520000, 124564844962646550000, 128497625618722380000, 130537707054329710000, 131583294967806100000, 132114860727133380000, 132383633684609560000, 132519033832074280000],
  [79377436447346336000, 103798530208940680000, 117636992125206630000, 125151734094321570000, 129121915987195800000, 131181754685659240000, 132237592321551660000, 132774411603591460000, 133045855502317540000, 133182606180977850000],
  [79572959602650872000, 104195906404348710000, 118156977809399680000, 125741218191290890000, 129749147284606650000, 131828931115747340000, 132895117729323940000, 133437242030435030000, 133711383266558680000, 133849497897004040000],
  [79767984723382937000, 104594258974913440000, 118678952816545180000, 126333307187954660000, 130379332510607020000, 132479251081717150000, 133555886871932150000, 134103368187105530000, 134380233415500790000, 134519725550946990000]]

/-- Rows from 1600 on. -/
def skRows16 : List (List Nat) := [
  [79962501056201660000, 104993585403606500000, 119202922022248860000, 126928011043121570000, 131012484714582520000, 133132729385814140000, 134219915504034480000, 134772806331632910000, 135052422468405320000, 135193305795994670000],
  [80156497781097985000, 105393883119466030000, 119728890289396370000, 127525339739947090000, 131648616995773240000, 133789380895655700000, 134887219454463110000, 135445572801005830000, 135727967026021020000, 135870255368134570000],
  [80349964011540667000, 105795149497263890000, 120256862467883290000, 128125303285868690000, 132287742503395950000, 134449220544480000000, 135557814626552590000, 136121684011543090000, 136406883770979730000, 136550591086562780000],
  [80542888794629938000, 106197381857173020000, 120786843394342450000, 128727911712540110000, 132929874436765380000, 135112263331396670000, 136231716998467950000, 136801156459267160000, 137089189468194210000, 137234329854093760000],
  [80735261111261017000, 106600577464436560000, 121318837891870510000, 129333175075764830000, 133575026045414550000, 135778524321637230000, 136908942623535280000, 137484006720279020000, 137774900965256960000, 137921488657573370000],
  [80927069876295082000, 107004733529036750000, 121852850769752300000, 129941103455427090000, 134223210629215880000, 136448018646806830000, 137589507630572430000, 138170251451135100000, 138464035192842390000, 138612084568292770000],
  [81118303938739714000, 107409847205365640000, 122388886823183690000, 130551706955422620000, 134874441538501590000, 137120761505135910000, 138273428224221870000, 138859907389225130000, 139156609165109410000, 139306134742405140000],
  [81308952081937627000, 107815915591895860000, 122926950832992900000, 131164995703587250000, 135528732174182650000, 137796768161733220000, 138960720685284010000, 139552991353152270000, 139852639980106800000, 140003656421343940000],
  [81499003023764824000, 108222935730853150000, 123467047565359990000, 131780979851624490000, 136186095987869350000, 138476053948838500000, 139651401371053140000, 140249520243115070000, 140552144820179970000, 140704666932243540000],
  [81688445416837285000, 108630904607889310000, 124009181771534900000, 132399669575031490000, 136846546481990020000, 139158634266076640000, 140345486715652420000, 140949511041290140000, 141255140952380560000, 141409183688361450000],
  [81877267848726967000, 109039819151756580000, 124553358187553670000, 133021075073023990000, 137510097209909590000, 139844524580712060000, 141042993230372640000, 141652980812217720000, 141961645728876430000, 142117224189503340000],
  [82065458842187092000, 109449676233982930000, 125099581533953090000, 133645206568458850000, 138176761776048320000, 140533740427903430000, 141743937504010290000, 142359946703187970000, 142671676587365070000, 142828806022448990000],
  [82253006855386362000, 109860472668548400000, 125647856515483990000, 134272074307756510000, 138846553835999560000, 141226297410959600000, 142448336203207820000, 143070425944629630000, 143385251051488060000, 143543946861381780000],
  [82439900282152839000, 110272205211563100000, 126198187820822680000, 134901688560821050000, 139519487096647690000, 141922211201595320000, 143156206072795530000, 143784435850499880000, 144102386731247640000, 144262664468318670000],
  [82626127452227000000, 110684870560945790000, 126750580122280440000, 135534059620959350000, 140195575316285130000, 142621497540188410000, 143867563936133540000, 144501993818676340000, 144823101323425770000, 144984976693543650000],
  [82811676631524750000, 111098465356104400000, 127305038075511940000, 136169197804797940000, 140874832304729050000, 143324172236036880000, 144582426695455900000, 145223117331350320000, 145547412612004100000, 145710901476042260000],
  [82996536022409501000, 111512986177617320000, 127861566319222160000, 136807113452199670000, 141557271923438010000, 144030251167616860000, 145300811332216420000, 145947823955422410000, 146275338468587120000, 146440456843938970000],
  [83180693763974148000, 111928429546916550000, 128420169474871170000, 137447816926177940000, 142242908085627620000, 144739750282841080000, 146022734907434500000, 146676131342899090000, 147006896852826110000, 147173660914936220000],
  [83364137932333299000, 112344791925972050000, 128980852146377780000, 138091318612809490000, 142931754756386450000, 145452685599318120000, 146748214562043320000, 147408057231291550000, 147742105812846410000, 147910531896755540000],
  [83546856540924488000, 112762069716977220000, 129543618919821020000, 138737628921146160000, 143623825952790720000, 146169073204611620000, 147477267517238690000, 148143619444016220000, 148480983485675040000, 148651088087581320000],
  [83728837540820208000, 113180259262037040000, 130108474363141130000, 139386758283125330000, 144319135744019610000, 146888929256501350000, 148209911074830030000, 148882835890796960000, 149223548097672050000, 149395347876506180000],
  [83910068821049552000, 113599356842856230000, 130675423025837960000, 140038717153477790000, 145017698251468290000, 147612269983242890000, 148946162617591470000, 149625724568068860000, 149969817964962560000, 150143329743978760000],
  [84090538208929935000, 114019358680430460000, 131244469438667830000, 140693516009635140000, 145719527648863010000, 148339111683829910000, 149686039609615160000, 150372303559384050000, 150719811493871510000, 150895052262253660000],
  [84270233470409406000, 114440260934738390000, 131815618113340300000, 141351165351635470000, 146424638162373420000, 149069470728255720000, 150429559596665760000, 151122591035819070000, 151473547181360300000, 151650534095843640000],
  [84449142310418737000, 114862059704435600000, 132388873542211180000, 142011675702026880000, 147133044070725670000, 149803363557775630000, 151176740206535760000, 151876605256384330000, 152231043615465220000, 152409794001973460000],
  [84627252373234485000, 115284751026550670000, 132964240197975670000, 142675057605770400000, 147844759705314940000, 150540806685170640000, 151927599149402850000, 152634364568435100000, 152992319475738580000, 153172850831037020000],
  [84804551242852008000, 115708330876182750000, 133541722533359520000, 143341321630140680000, 148559799450316750000, 151281816695010170000, 152682154218187790000, 153395887408083940000, 153757393533690940000, 153939723527055430000],
  [84981026443369453000, 116132795166200840000, 134121324980808500000, 144010478364625470000, 149278177742798890000, 152026410243916940000, 153440423288914330000, 154161192300615780000, 154526284653236170000, 154710431128138310000],
  [85156665439381982000, 116558139746945650000, 134703051952176440000, 144682538420823320000, 149999909072831480000, 152774604060831320000, 154202424321069930000, 154930297860904340000, 155299011791138590000, 155484992766946770000],
  [85331455636386944000, 116984360405933030000, 135286907838411990000, 145357512432340050000, 150725007983598220000, 153526414947277060000, 154968175357968030000, 155703222793829920000, 156075593997461460000, 156263427671158750000],
  [85505384381200158000, 117411452867559260000, 135872897009243820000, 146035411054683210000, 151453489071505300000, 154281859777626480000, 155737694527112000000, 156479985894699970000, 156856050416018660000, 157045755163936790000],
  [85678438962382156000, 117839412792809000000, 136461023812864070000, 146716244965155170000, 152185366986291010000, 155040955499367470000, 156511000040559460000, 157260606049670460000, 157640400284827150000, 157831994664397680000],
  [85850606610676478000, 118268235778964920000, 137051292575610550000, 147400024862745140000, 152920656431134340000, 155803719133370100000, 157288110195288990000, 158045102236169850000, 158428662936562990000, 158622165688084850000],
  [86021874499458320000, 118697917359319850000, 137643707601647790000, 148086761468018270000, 153659372162763650000, 156570167774154080000, 158069043373567230000, 158833493523324680000, 159220857799018400000, 159416287847442740000],
  [86192229745194276000, 119128453002891000000, 138238273172646170000, 148776465523004750000, 154401528991563150000, 157340318590156990000, 158853818043318630000, 159625799072386780000, 160017004395561190000, 160214380852293480000],
  [86361659407913641000, 119559838114136660000, 138834993547459980000, 149469147791086000000, 155147141781681210000, 158114188824002490000, 159642452758494700000, 160422038137162410000, 160817122345596890000, 161016464510315760000],
  [86530150491690938000, 119992068032675160000, 139433872961803480000, 150164819056880010000, 155896225451135930000, 158891795792769910000, 160434966159446300000, 161222230064443440000, 161621231365032060000, 161822558727526660000],
  [86697689945139295000, 120425138033006240000, 140034915627926890000, 150863490126125180000, 156648794971921500000, 159673156888263310000, 161231376973296310000, 162026394294440410000, 162429351266740910000, 162632683508764780000],
  [86864264661915880000, 120859043324235240000, 140638125734288850000, 151565171825561260000, 157404865370113220000, 160458289577282060000, 162031704014314190000, 162834550361217110000, 163241501961032820000, 163446858958176430000],
  [87029861481238480000, 121293779049799430000, 141243507445230230000, 152269875002810500000, 158164451725972520000, 161247211401891080000, 162835966184291190000, 163646717893127120000, 164057703456123250000, 164265105279704500000],
  [87194467188413602000, 121729340287197160000, 141851064900643860000, 152977610526256000000, 158927569174050820000, 162039939979692650000, 163644182472917760000, 164462916613253130000, 164877975858606030000, 165087442777578170000],
  [87358068515376405000, 122165722047719610000, 142460802215644670000, 153688389284917930000, 159694232903292880000, 162836493004097440000, 164456371958161850000, 165283166339846080000, 165702339373928230000, 165913891856806660000],
  [87520652141242189000, 122602919276185480000, 143072723480238110000, 154402222188330020000, 160464458157140310000, 163636888244597130000, 165272553806648240000, 166107486986768800000, 166530814306866700000, 166744473023674820000],
  [87682204692869734000, 123040926850678050000, 143686832758987190000, 155119120166412240000, 161238260233633050000, 164441143547037150000, 166092747274040330000, 166935898563939340000, 167363421062007860000, 167579206886240370000],
  [87842712745436480000, 123479739582285380000, 144303134090677410000, 155839094169343220000, 162015654485511580000, 165249276833889680000, 166916971705422000000, 167768421177777770000, 168200180144228770000, 168418114154834740000],
  [88002162823025573000, 123919352214843650000, 144921631487982180000, 156562155167430050000, 162796656320317590000, 166061306104527660000, 167745246535681460000, 168605075031653620000, 169041112159180500000, 169261215642565130000],
  [88160541399224968000, 124359759424682910000, 145542328937125290000, 157288314150977740000, 163581281200494090000, 166877249435498980000, 168577591289897110000, 169445880426336380000, 169886237813774680000, 170108532265820510000],
  [88317834897738368000, 124800955820375990000, 146165230397542730000, 158017582130155150000, 164369544643485880000, 167697124980801140000, 169414025583723010000, 170290857760447170000, 170735577916671040000, 170960085044778030000],
  [88474029693008577000, 125242935942491110000, 146790339801543680000, 158749970134860920000, 165161462221837450000, 168520950972156660000, 170254569123777820000, 171140027530912480000, 171589153378767900000, 171815895103913790000],
  [88629112110852781000, 125685694263346500000, 147417661053969560000, 159485489214586440000, 165957049563292050000, 169348745719288570000, 171099241708033450000, 171993410333420440000, 172446985213695000000, 172675983672515050000],
  [88783068429110171000, 126129225186769720000, 148047198031852100000, 160224150438278150000, 166756322350889080000, 170180527610196950000, 171948063226206260000, 172851026862877900000, 173309094538308480000, 173540372085194710000],
  [88935884878301757000, 126573523047858600000, 148678954584070710000, 160965964894197260000, 167559296323061050000, 171016315111435610000, 172801053660148560000, 173712897913870570000, 174175502573187780000, 174409081782409690000],
  [89087547642302797000, 127018582112746720000, 149312934531007800000, 161710943689778540000, 168365987273729700000, 171856126768388910000, 173658233084242640000, 174579044381124790000, 175046230643135630000, 175282134310979550000],
  [89238042859027117000, 127464396578372110000, 149949141664203480000, 162459097951486360000, 169176411052401610000, 172699981205550080000, 174519621665795350000, 175449487259970530000, 175921300177679710000, 176159551324609780000],
  [89387356621124320000, 127910960572248570000, 150587579746009310000, 163210438824670120000, 169990583564262890000, 173547897126798800000, 175385239665434150000, 176324247646807850000, 176800732711576620000, 177041354584416330000],
  [89535474976689733000, 128358268152241660000, 151228252509240270000, 163964977473417370000, 170808520770273450000, 174399893315680120000, 176255107437505140000, 177203346739573940000, 177684549885318900000, 177927565959453000000],
  [89682383929986134000, 128806313306347540000, 151871163656825990000, 164722725080405060000, 171630238687260020000, 175255988635683560000, 177129245430471930000, 178086805838212790000, 178572773445643350000, 178818207427241500000],
  [89828069442178735000, 129255089952475590000, 152516316861461220000, 165483692846749330000, 172455753388009060000, 176116202030522810000, 178007674187315860000, 178974646345146820000, 179465425246042700000, 179713301074303860000],
  [89972517432082538000, 129704591938234660000, 153163715765254280000, 166247891991853550000, 173285081001357980000, 176980552524415190000, 178890414345938000000, 179866889765750580000, 180362527247278830000, 180612869096697600000],
  [90115713776922873000, 130154813040723650000, 153813363979375450000, 167015333753254390000, 174118237712287320000, 177849059222362880000, 179777486639562500000, 180763557708826160000, 181264101517898850000, 181516933800553200000],
  [90257644313107968000, 130605746966325150000, 154465265083704200000, 167786029386466330000, 174955239762009550000, 178721741310433170000, 180668911897140930000, 181664671887081020000, 182170170234753540000, 182425517602614500000],
  [90398294837014836000, 131057387350503290000, 155119422626473940000, 168559990164824230000, 175796103448059790000, 179598618056040600000, 181564711043758510000, 182570254117607580000, 183080755683517950000, 183338643030781510000],
  [90537651105788083000, 131509727757605670000, 155775840123918260000, 169337227379324270000, 176640845124383990000, 180479708808228030000, 182464905101041380000, 183480326322364630000, 183995880259214430000, 184256332724655410000],
  [90675698838151186000, 131962761680669340000, 156434521059914010000, 170117752338463050000, 177489481201426770000, 181365032997949450000, 183369515187565750000, 184394910528661530000, 184915566466738480000, 185178609436087440000],
  [90812423715231017000, 132416482541230620000, 157095468885624980000, 170901576368074930000, 178342028146218770000, 182254610138352400000, 184278562519267750000, 185314028869643820000, 185839836921386530000, 186105496029728840000],
  [90947811381395335000, 132870883689138850000, 157758687019142830000, 171688710811167740000, 179198502482462610000, 183148459825061250000, 185192068409855440000, 186237703584780560000, 186768714349386270000, 187037015483584370000],
  [91081847445103281000, 133325958402375850000, 158424178845129470000, 172479167027755980000, 180058920790618800000, 184046601736460620000, 186110054271221820000, 187165957020355100000, 187702221588429470000, 187973190889568540000],
  [91214517479768789000, 133781699886876960000, 159091947714456310000, 173272956394693390000, 180923299707990150000, 184949055633979870000, 187032541613859270000, 188098811629956400000, 188640381588207480000, 188914045454063900000],
  [91345807024636960000, 134238101276359300000, 159761996943844080000, 174070090305502800000, 181791655928804970000, 185855841362376710000, 187959552047275410000, 189036289974973100000, 189583217410948970000, 189859602498482850000],
  [91475701585674238000, 134695155632152200000, 160434329815501260000, 174870580170204460000, 182664006204301010000, 186766978850022770000, 188891107280410720000, 189978414725090080000, 190530752231959950000, 190809885459831190000],
  [91604186636470894000, 135152855943034140000, 161108949576761670000, 175674437415142660000, 183540367342806770000, 187682488109188470000, 189827229122057160000, 190925208658786120000, 191483009340166770000, 191764917891275060000],
  [91731247619156950000, 135611195125071910000, 161785859439721120000, 176481673482810600000, 184420756209823040000, 188602389236328800000, 190767939481278150000, 191876694663834580000, 192440012138660990000, 192724723462710550000],
  [91856869945331668000, 136070166021466630000, 162465062580873900000, 177292299831672470000, 185305189728102950000, 189526702412369320000, 191713260367830850000, 192832895737805790000, 193401784145247470000, 193689325961335730000],
  [91981038997005701000, 136529761402402890000, 163146562140747630000, 178106327935986050000, 186193684877731610000, 190455447902992540000, 192663213892588450000, 193793834988571280000, 194368348992994430000, 194658749292225510000],
  [92103740127556802000, 136989973964903200000, 163830361223538170000, 178923769285620370000, 187086258696204400000, 191388646058925110000, 193617822267965150000, 194759535634810660000, 195339730430786420000, 195633017478909600000],
  [92224958662698864000, 137450796332687700000, 164516462896743100000, 179744635385874430000, 187982928278504930000, 192326317316224740000, 194577107808342110000, 195730021006520540000, 196315952323879110000, 196612154663952680000],
  [92344679901463819000, 137912221056037730000, 165204870190795220000, 180568937757291630000, 188883710777181250000, 193268482196567920000, 195541092930494650000, 196705314545525030000, 197297038654457830000, 197596185109538000000],
  [92462889117197328000, 138374240611665480000, 165895586098694950000, 181396687935474420000, 189788623402421890000, 194215161307537910000, 196509800154021030000, 197685439805989020000, 198283013522197540000, 198585133198052960000],
  [92579571558567400000, 138836847402587310000, 166588613575641780000, 182227897470895990000, 190697683422130810000, 195166375342913280000, 197483252101772920000, 198670420454933490000, 199273901144825900000, 199579023432678470000],
  [92694712450586511000, 139300033758003650000, 167283955538665960000, 183062577928710110000, 191610908162000990000, 196122145082956530000, 198461471500286760000, 199660280272752480000, 200269725858688940000, 200577880437980280000],
  [92808296995647049000, 139763791933182890000, 167981614866258980000, 183900740888559370000, 192528315005587450000, 197082491394703210000, 199444481180217460000, 200655043153733170000, 201270512119319230000, 201581728960503640000],
  [92920310374570006000, 140228114109351070000, 168681594398003700000, 184742397944382130000, 193449921394379360000, 198047435232251490000, 200432304076772290000, 201654733106576920000, 202276284502006630000, 202590593869370590000],
  [93030737747666736000, 140692992393586760000, 169383896934203720000, 185587560704215980000, 194375744827870820000, 199016997637051970000, 201424963230147470000, 202659374254923450000, 203287067702371510000, 203604500156880140000],
  [93139564255814780000, 141158418818720770000, 170088525235512100000, 186436240790001730000, 195305802863630950000, 199991199738197790000, 202422481785965470000, 203668990837876900000, 204302886536940760000, 204623472939111540000],
  [93246775021546158000, 141624385343242010000, 170795482022560840000, 187288449837383190000, 196240113117372990000, 200970062752715260000, 203424882995713820000, 204683607210534050000, 205323765943726950000, 205647537456530110000],
  [93352355150149557000, 142090883851208690000, 171504769975588060000, 188144199495506510000, 197178693263022260000, 201953607985855070000, 204432190217185700000, 205703247844514580000, 206349730982808820000, 206676719074596090000],
  [93456289730785805000, 142557906152164460000, 172216391734065610000, 189003501426817350000, 198121561032783000000, 202941856831382720000, 205444426914921740000, 206727937328494070000, 207380806836915840000, 207711043284376670000],
  [93558563837616182000, 143025443981061010000, 172930349896327160000, 189866367306856050000, 199068734217204560000, 203934830771871020000, 206461616660653190000, 207757700368738200000, 208417018812014630000, 208750535703160380000],
  [93659162530944431000, 143493488998185620000, 173646647019194360000, 190732808824050890000, 200020230665246410000, 204932551378991220000, 207483783133746850000, 208792561789640510000, 209458392337898060000, 209795222075074890000],
  [93758070858372233000, 143962032789094750000, 174365285617603170000, 191602837679509950000, 200976068284341720000, 205935040313805610000, 208510950121651270000, 209832546534261200000, 210504952968777550000, 210845128271707730000],
  [93855273855967425000, 144431066864553730000, 175086268164230590000, 192476465586809920000, 201936265040460830000, 206942319327060060000, 209543141520344370000, 210877679664869280000, 211556726383877620000, 211900280292729750000],
  [93950756549445499000, 144900582660481700000, 175809597089120500000, 193353704271785190000, 202900838958172350000, 207954410259476700000, 210580381334782410000, 211927986363485230000, 212613738388033240000, 212960704266521580000],
  [94044503955365122000, 145370571537902840000, 176535274779308940000, 194234565472312660000, 203869808120704270000, 208971335042046900000, 211622693679351300000, 212983491932428160000, 213676014912289990000, 214026426450803530000],
  [94136501082335913000, 145841024782904200000, 177263303578449880000, 195119060938095950000, 204843190670003840000, 209993115696325310000, 212670102778317720000, 214044221794863520000, 214743582014506910000, 215097473233267670000],
  [94226732932239515000, 146311933606598190000, 177993685786440230000, 196007202430448000000, 205821004806795880000, 211019774334723130000, 213722632966283330000, 215110201495353870000, 215816465879962280000, 216173871132213840000],
  [94315184501464769000, 146783289145092450000, 178726423659044950000, 196899001722070840000, 206803268790640180000, 212051333160802100000, 214780308688639680000, 216181456700411200000, 216894692821961610000, 217255646797188060000],
  [94401840782154342000, 147255082459465640000, 179461519407522030000, 197794470596834360000, 207790000939988120000, 213087814469569120000, 215843154502024380000, 217258013199052720000, 217978289282449220000, 218342827009624120000],
  [94486686763466096000, 147727304535748750000, 180198975198247120000, 198693620849552640000, 208781219632238090000, 214129240647770610000, 216911195074779660000, 218339896903357810000, 219067281832621720000, 219435438683488530000],
  [94569707432846414000, 148199946284913920000, 180938793152338740000, 199596464285758560000, 209776943303789180000, 215175634174187360000, 217984455187411000000, 219427133849027760000, 220161697173545220000, 220533508865928010000],
  [94650887777316742000, 148672998542869060000, 181680975345281990000, 200503012721476830000, 210777190450094660000, 216227017619930050000, 219062959733048900000, 220519750195947660000, 221261562136774200000, 221637064737920890000]]

/-- Rows from 1700 on. -/
def skRows17 : List (List Nat) := [
  [94730212784773518000, 149146452070458730000, 182425523806554470000, 201413277982994800000, 211781979625713410000, 217283413648734160000, 220146733717910550000, 221617772228751010000, 222366903684974530000, 222746133614930400000],
  [94807667445300198000, 149620297553471840000, 183172440519250080000, 202327271906631050000, 212791329444361240000, 218344845017255930000, 221235802261764290000, 222721226357385810000, 223477748912548150000, 223860742947562530000],
  [94883236752493064000, 150094525602656100000, 183921727419703860000, 203245006338503150000, 213805258578959910000, 219411334575368100000, 222330190598394260000, 223830139117683930000, 224594125046261170000, 224980920322225750000],
  [94956905704799074000, 150569126753738490000, 184673386397117560000, 204166493134292530000, 214823785761685930000, 220482905266456230000, 223429924076068040000, 224944537171932050000, 225716059445874830000, 226106693461794600000],
  [95028659306866520000, 151044091467453290000, 185427419293183430000, 205091744159008330000, 215846929784017460000, 221559580127714730000, 224535028158004220000, 226064447309445690000, 226843579604779160000, 227238090226276250000],
  [95098482570909137000, 151519410129576790000, 186183827901710510000, 206020771286748230000, 216874709496780870000, 222641382290444110000, 225645528422842720000, 227189896447144240000, 227976713150629450000, 228375138613480160000],
  [95166360518081694000, 151995073050967210000, 186942613968249100000, 206953586400458490000, 217907143810194830000, 223728334980347280000, 226761450565115740000, 228320911630130350000, 229115487845985950000, 229517866759691160000],
  [95232278179868929000, 152471070467614710000, 187703779189716620000, 207890201391691900000, 218944251693914520000, 224820461517826890000, 227882820395720580000, 229457520032269820000, 230259931588955890000, 230666302940345510000],
  [95296220599486864000, 152947392540695090000, 188467325214023650000, 208830628160363410000, 219986052177074010000, 225917785318282520000, 229009663842394020000, 230599748956774850000, 231410072413839070000, 231820475570710010000],
  [95358172833295909000, 153424029356632600000, 189233253639699370000, 209774878614504110000, 221032564348327160000, 227020329892408140000, 230142006950187880000, 231747625836789430000, 232565938491775900000, 232980413206565040000],
  [95418119952227293000, 153900970927169170000, 190001566015518650000, 210722964670013720000, 222083807355887840000, 228128118846490010000, 231279875881946400000, 232901178235977110000, 233727558131398620000, 234146144544889910000],
  [95476047043220810000, 154378207189440730000, 190772263840128380000, 211674898250410410000, 223139800407568670000, 229241175882704260000, 232423296918784660000, 234060433849111070000, 234894959779485300000, 235317698424552390000],
  [95531939210675487000, 154855728006061210000, 191545348561674710000, 212630691286579710000, 224200562770818180000, 230359524799415400000, 233572296460569210000, 235225420502666930000, 236068172021616810000, 236495103827000760000],
  [95585781577911616000, 155333523165212790000, 192320821577430910000, 213590355716520660000, 225266113772757430000, 231483189491474030000, 234726901026399400000, 236396166155417310000, 237247223582836920000, 237678389876959690000],
  [95637559288645493000, 155811582380745220000, 193098684233425130000, 214553903485090900000, 226336472800214430000, 232612193950515830000, 235887137255090530000, 237572698899029410000, 238432143328315390000, 238867585843128870000],
  [95687257508475537000, 156289895292280020000, 193878937824069310000, 215521346543749190000, 227411659299758400000, 233746562265259970000, 237053031905658990000, 238755046958664950000, 239622960264013580000, 240062721138885720000],
  [95734861426380199000, 156768451465325480000, 194661583591788090000, 216492696850296570000, 228491692777731740000, 234886318621807840000, 238224611857807770000, 239943238693582280000, 240819703537353740000, 241263825322990840000],
  [95780356256228244000, 157247240391395730000, 195446622726648700000, 217467966368615510000, 229576592800280980000, 236031487303941970000, 239401904112414600000, 241137302597740800000, 242022402437890970000, 242470928100297000000],
  [95823727238299780000, 157726251488140040000, 196234056365990980000, 218447167068407110000, 230666378993386960000, 237182092693425240000, 240584935792021000000, 242337267300408300000, 243231086397988130000, 243684059322461400000],
  [95864959640819258000, 158205474099478050000, 197023885594058760000, 219430310924926600000, 231761071042893040000, 238338159270300220000, 241773734141322800000, 243543161566770720000, 244445784993493980000, 244903248988661590000],
  [95904038761499791000, 158684897495743550000, 197816111441631550000, 220417409918716830000, 232860688694531890000, 239499711613188120000, 242968326527662290000, 244755014298543540000, 245666527944424280000, 246128527246314400000],
  [95940949929098712000, 159164510873836230000, 198610734885656920000, 221408476035340310000, 233965251753951660000, 240666774399588810000, 244168740441522090000, 245972854534586700000, 246893345115645920000, 247359924391798660000],
  [95975678504984355000, 159644303357379970000, 199407756848883370000, 222403521265108790000, 235074780086740630000, 241839372406180340000, 245375003497020020000, 247196711451521580000, 248126266517564360000, 248597470871181000000],
  [96008209884713758000, 160124263996890640000, 200207178199494930000, 223402557602811520000, 236189293618449480000, 243017530509118200000, 246587143432405930000, 248426614364350230000, 249365322306813710000, 249841197280945420000],
  [96038529499621147000, 160604381769950480000, 201008999750745820000, 224405597047441540000, 237308812334613710000, 244201273684335920000, 247805188110559770000, 249662592727077050000, 250610542786950220000, 251091134368726150000],
  [96066622818417935000, 161084645581391270000, 201813222260596000000, 225412651601920090000, 238433356280773720000, 245390627007844700000, 249029165519491200000, 250904676133333780000, 251861958409149490000, 252347313034043840000],
  [96092475348802414000, 161565044263485200000, 202619846431348420000, 226423733272819030000, 239562945562493690000, 246585615656033290000, 250259103772840830000, 252152894317006100000, 253119599772905270000, 253609764329045640000],
  [96116072639080494000, 162045566576143550000, 203428872909286100000, 227438854070082270000, 240697600345379380000, 247786264905968560000, 251495031110382520000, 253407277152862540000, 254383497626732570000, 254878519459248390000],
  [96137400279796642000, 162526201207124490000, 204240302284311250000, 228458026006743890000, 241837340855093840000, 248992600135695520000, 252736975898528340000, 254667854657187610000, 255653682868873850000, 256153609784285530000],
  [96156443905375574000, 163006936772247290000, 205054135089585120000, 229481261098645970000, 242982187377372430000, 250204646824537410000, 253984966630832810000, 255934656988414720000, 256930186548008310000, 257435066818657300000],
  [96173189195773195000, 163487761815617060000, 205870371801168430000, 230508571364153700000, 244132160258036550000, 251422430553397080000, 255239031928501670000, 257207714447764690000, 258213039863963930000, 258722922232485660000],
  [96187621878138049000, 163968664809855780000, 206689012837663670000, 231539968823869370000, 245287279903004580000, 252645977005055260000, 256499200540899470000, 258487057479884320000, 259502274168432970000, 260017207852269890000],
  [96199727728482690000, 164449634156342420000, 207510058559858180000, 232575465500343440000, 246447566778303430000, 253875311964474550000, 257765501346059970000, 259772716673488340000, 260797920965690880000, 261317955661649950000],
  [96209492573364003000, 164930658185462040000, 208333509270368980000, 233615073417785420000, 247613041410076560000, 255110461319096200000, 259037963351197610000, 261064722762004710000, 262100011913318330000, 262625197802169310000],
  [96216902291574036000, 165411725156862090000, 209159365213287460000, 234658804601771380000, 248783724384592370000, 256351451059143810000, 260316615693221290000, 262363106624221520000, 263408578822926060000, 263938966574044750000],
  [96221942815838860000, 165892823259718240000, 209987626573827410000, 235706671078951190000, 249959636348250000000, 257598307277921210000, 261601487639248230000, 263667899284936610000, 264723653660883680000, 265259294436937470000],
  [96224600134528215000, 166373940613008110000, 210818293477972760000, 236758684876752640000, 251140798007583150000, 258851056172116070000, 262892608587120880000, 264979131915610120000, 266045268549050970000, 266586214010729020000],
  [96224860293372197000, 166855065265793940000, 211651365992127580000, 237814858023084550000, 252327230129265390000, 260109724042097980000, 264190008065923580000, 266296835835019120000, 267373455765513190000, 267919758076300250000],
  [96222709397188702000, 167336185197513670000, 212486844122766530000, 238875202546038500000, 253518953540108950000, 261374337292221040000, 265493715736503320000, 267621042509915420000, 268708247745319150000, 269259959576314710000],
  [96218133611617906000, 167817288318280300000, 213324727816088550000, 239939730473587100000, 254715989127067060000, 262644922431122860000, 266803761391988300000, 268951783555685390000, 270049677081222630000, 270606851616005170000],
  [96211119164866188000, 168298362469191110000, 214165016957670260000, 241008453833283510000, 255918357837232100000, 263921506072027250000, 268120174958312420000, 270289090737013020000, 271397776524427310000, 271960467463964070000],
  [96201652349457989000, 168779395422644310000, 215007711372122050000, 242081384651955670000, 257126080677831990000, 265204114933043020000, 269442986494736690000, 271632995968544950000, 272752578985335230000, 273320840552937150000],
  [96189719523995645000, 169260374882665320000, 215852810822745130000, 243158534955402100000, 258339178716226640000, 266492775837465610000, 270772226194376460000, 272983531315558750000, 274114117534297260000, 274688004480622360000],
  [96175307114927028000, 169741288485241170000, 216700315011190410000, 244239916768083320000, 259557673079901850000, 267787515714077830000, 272107924384726310000, 274340728994632970000, 275482425402369500000, 276061993010470130000],
  [96158401618321579000, 170222123798664860000, 217550223577119530000, 245325542112813630000, 260781584956461530000, 269088361597449980000, 273450111528189490000, 275704621374320670000, 276857535982069800000, 277442840072490090000],
  [96138989601652652000, 170702868323887090000, 218402536097867330000, 246415423010449660000, 262010935593618710000, 270395340628240550000, 274798818222607600000, 277075240975825750000, 278239482828140870000, 278830579764059510000],
  [96117057705588149000, 171183509494878340000, 219257252088105370000, 247509571479578580000, 263245746299185680000, 271708480053497240000, 276154075201790810000, 278452620473680910000, 279628299658313980000, 280225246350736370000],
  [96092592645787747000, 171664034678999270000, 220114370999508560000, 248607999536203190000, 264486038441061000000, 273027807226956690000, 277515913336050860000, 279836792696428360000, 281024020354077810000, 281626874267076830000],
  [96065581214707166000, 172144431177379850000, 220973892220423070000, 249710719193426740000, 265731833447216070000, 274353349609345320000, 278884363632736330000, 281227790627305020000, 282426678961450180000, 283035498117454490000],
  [96036010283408663000, 172624686225308300000, 221835815075535540000, 250817742461135030000, 266983152805679910000, 275685134768679730000, 280259457236766870000, 282625647404927520000, 283836309691753770000, 284451152676887250000],
  [96003866803378690000, 173104786992628430000, 222700138825545600000, 251929081345677540000, 268240018064522740000, 277023190380566440000, 281641225431171650000, 284030396323982690000, 285252946922393720000, 285873872891863670000],
  [95969137808351104000, 173584720584145950000, 223566862666839370000, 253044747849546610000, 269502450831836330000, 278367544228502960000, 283029699637627090000, 285442070835918770000, 286676625197640200000, 287303693881176600000],
  [95931810416136548000, 174064474040045240000, 224435985731164880000, 254164753971054760000, 270770472775714750000, 279718224204176410000, 284424911416997440000, 286860704549639860000, 288107379229414260000, 288740650936758820000],
  [95891871830458067000, 174544034336313440000, 225307507085310860000, 255289111704011750000, 272044105624233150000, 281075258307764750000, 285826892469876530000, 288286331232203820000, 289545243898076230000, 290184779524523320000],
  [95849309342791067000, 175023388385175060000, 226181425730786150000, 256417833037397620000, 273323371165422990000, 282438674648236800000, 287235674637131010000, 289718984809521960000, 290990254253219010000, 291636115285207890000],
  [95804110334209588000, 175502523035534990000, 227057740603502230000, 257550929955035810000, 274608291247248390000, 283808501443650610000, 288651289900444920000, 291158699367061120000, 292442445514463470000, 293094694035223260000],
  [95756262277237617000, 175981425073431400000, 227936450573457740000, 258688414435265360000, 275898887777578260000, 285184767021453790000, 290073770382865690000, 292605509150550670000, 293901853072257750000, 294560551767504340000],
  [95705752737704569000, 176460081222497840000, 228817554444425590000, 259830298450609340000, 277195182724160050000, 286567499818783990000, 291503148349352980000, 294059448566689140000, 295368512488681510000, 296033724652367820000],
  [95652569376605240000, 176938478144433890000, 229701050953641290000, 260976593967444210000, 278497198114587670000, 287956728382765650000, 292939456207325700000, 295520552183855920000, 296842459498251220000, 297514249038370590000],
  [95596699951965111000, 177416602439486040000, 230586938771495440000, 262127312945664330000, 279804956036270980000, 289352481370812320000, 294382726507215030000, 296988854732824710000, 298323730008731080000, 299002161453175930000],
  [95538132320708180000, 177894440646937130000, 231475216501227070000, 263282467338349540000, 281118478636402660000, 290754787550922990000, 295832991943014820000, 298464391107480190000, 299812360101946900000, 300497498604420100000],
  [95476854440530445000, 178371979245606020000, 232365882678620410000, 264442069091426870000, 282437788121922770000, 292163675801982490000, 297290285352836750000, 299947196365537290000, 301308386034602970000, 302000297380585090000],
  [95412854371774589000, 178849204654355830000, 233258935771703510000, 265606130143333060000, 283762906759482350000, 293579175114059340000, 298754639719463980000, 301437305729262420000, 302811844239103070000, 303510594851876370000],
  [95346120279309873000, 179326103232611830000, 234154374180449960000, 266774662424674070000, 285093856875405950000, 295001314588704930000, 300226088170909230000, 302934754586199060000, 304322771324375410000, 305028428271101550000],
  [95276640434414181000, 179802661280889060000, 235052196236483270000, 267947677857886980000, 286430660855649890000, 296430123439251010000, 301704663980971840000, 304439578489894890000, 305841204076700850000, 306553835074555910000],
  [95204403216658476000, 180278865041328530000, 235952400202782600000, 269125188356893750000, 287773341145762030000, 297865630991108300000, 303190400569798070000, 305951813160632410000, 307367179460543980000, 308086852882911600000],
  [95129397115794878000, 180754700698244260000, 236854984273394020000, 270307205826759430000, 289121920250837770000, 299307866682064050000, 304683331504442210000, 307471494486161510000, 308900734619389490000, 309627519502110090000],
  [95051610733644959000, 181230154378678260000, 237759946573141120000, 271493742163347210000, 290476420735475140000, 300756860062579840000, 306183490499428890000, 308998658522436300000, 310441906876581240000, 311175872924259690000],
  [94971032785991616000, 181705212152965340000, 238667285157340620000, 272684809252969340000, 291836865223727430000, 302212640796088670000, 307690911417317190000, 310533341494352970000, 311990733736164320000, 312731951328536870000],
  [94887652104472017000, 182179860035308620000, 239576998011520850000, 273880418972041240000, 293203276399054970000, 303675238659292690000, 309205628269266730000, 312075579796491750000, 313547252883732860000, 314295793082091710000],
  [94801457638471476000, 182654083984362700000, 240489083051141610000, 275080583186731060000, 294575677004274780000, 305144683542459660000, 310727675215604130000, 313625409993861740000, 315111502187278850000, 315867436740957740000],
  [94712438457018641000, 183127869903827590000, 241403538121318400000, 276285313752607950000, 295954089841508670000, 306621005449719430000, 312257086566392340000, 315182868822647230000, 316683519698048140000, 317446921050966830000],
  [94620583750680998000, 183601203643051380000, 242320360996549410000, 277494622514290410000, 297338537772128260000, 308104234499360750000, 313793896781999430000, 316747993190959090000, 318263343651395520000, 319034284948666090000],
  [94525882833461652000, 184074070997642860000, 243239549380444590000, 278708521305092220000, 298729043716701170000, 309594400924127770000, 315338140473671980000, 318320820179586130000, 319851012467649020000, 320629567562242530000],
  [94428325144695069000, 184546457710093040000, 244161100905458840000, 279927021946667630000, 300125630654931530000, 311091535071514380000, 316889852404105940000, 319901387042752280000, 321446564752973120000, 322232808212447930000],
  [94327900250943633000, 185018349470407820000, 245085013132628480000, 281150136248654810000, 301528321625602890000, 312595667404061920000, 318449067488023150000, 321489731208875030000, 323050039300238960000, 323844046413532150000],
  [94224597847892402000, 185489731916746700000, 246011283551309380000, 282377876008317540000, 302937139726515310000, 314106828499651490000, 320015820792745600000, 323085890281326000000, 324661475089896570000, 325463321874177650000],
  [94118407762245004000, 185960590636075230000, 246939909578920590000, 283610253010187220000, 304352108114424260000, 315625049051802330000, 321590147538774460000, 324689902039196730000, 326280911290852020000, 327090674498440090000],
  [94009319953616111000, 186430911164823470000, 247870888560688840000, 284847279025701510000, 305773250004974740000, 317150359869963870000, 323172083100367770000, 326301804438064950000, 327908387261347520000, 328726144386692010000],
  [93897324516424283000, 186900678989556340000, 248804217769398540000, 286088965812843490000, 307200588672635220000, 318682791879811300000, 324761663006121080000, 327921635610765870000, 329543942549846310000, 330369771836573400000],
  [93782411681781613000, 187369879547651140000, 249739894405143080000, 287335325115778140000, 308634147450630610000, 320222376123538150000, 326358922939549820000, 329549433868164150000, 331187616895920240000, 332021597343942930000],
  [93664571819382508000, 187838498227986840000, 250677915595081740000, 288586368664489610000, 310073949730870440000, 321769143760151700000, 327963898739671860000, 331185237699931020000, 332839450231142360000, 333681661603837550000],
  [93543795439389177000, 188306520371641140000, 251618278393198000000, 289842108174413800000, 311520018963878820000, 323323126065765130000, 329576626401593630000, 332829085775322330000, 334499482679982700000, 335350005511433570000],
  [93420073194314626000, 188773931272597700000, 252560979780063090000, 291102555346074040000, 312972378658718740000, 324884354433890740000, 331197142077094330000, 334481016943961540000, 336167754560708190000, 337026670163013520000],
  [93293395880902547000, 189240716178462280000, 253506016662601640000, 292367721864711940000, 314431052382919130000, 326452860375731900000, 332825482075215840000, 336141070236622710000, 337844306386286100000, 338711696856938420000],
  [93163754442003699000, 189706860291189490000, 254453385873862130000, 293637619399919000000, 315896063762395040000, 328028675520475930000, 334461682862850380000, 337809284866021190000, 339529178865292660000, 340405127094621780000],
  [93031139968449056000, 190172348767816500000, 255403084172789560000, 294912259605267510000, 317367436481370110000, 329611831615585660000, 336105781065331730000, 339485700227600990000, 341222412902823570000, 342107002581511780000],
  [92895543700917474000, 190637166721209030000, 256355108244004260000, 296191654117938740000, 318845194282294580000, 331202360527090340000, 337757813467027490000, 341170355900331460000, 342924049601410760000, 343817365228074600000],
  [92756957031800355000, 191101299220814650000, 257309454697581430000, 297475814558349370000, 320329360965763530000, 332800294239876730000, 339417817011932240000, 342863291647501730000, 344634130261941400000, 345536257150785290000],
  [92615371507061200000, 191564731293425940000, 258266120068836760000, 298764752529781850000, 321819960390431370000, 334405664857980510000, 341085828804262360000, 344564547417521350000, 346352696384580880000, 347263720673120280000],
  [92470778828089017000, 192027447923952880000, 259225100818114670000, 300058479618005690000, 323317016472924160000, 336018504604874810000, 342761886109053670000, 346274163344723220000, 348079789669701990000, 348999798326557920000],
  [92323170853547701000, 192489434056205560000, 260186393330581520000, 301357007390906100000, 324820553187753820000, 337638845823760970000, 344446026352758230000, 347992179750168270000, 349815452018815250000, 350744532851579920000],
  [92172539601218142000, 192950674593683340000, 261149993916021120000, 302660347398104660000, 326330594567225410000, 339266720977857430000, 346138287123843810000, 349718637142454550000, 351559725535505190000, 352497967198681320000],
  [92018877249835554000, 193411154400376960000, 262115898808636340000, 303968511170582930000, 327847164701345230000, 340902162650688350000, 347838706173395350000, 351453576218528960000, 353312652526369450000, 354260144529381200000],
  [91862176140918780000, 193870858301576720000, 263084104166851570000, 305281510220304920000, 329370287737728080000, 342545203546371970000, 349547321415715980000, 353197037864501300000, 355074275501963630000, 356031108217241990000],
  [91702428780594231000, 194329771084691290000, 264054606073124090000, 306599356039836230000, 330899987881499550000, 344195876489908510000, 351264170928932580000, 354949063156462240000, 356844637177747730000, 357810901848890310000],
  [91539627841410537000, 194787877500075340000, 265027400533754680000, 307922060101964660000, 332436289395198930000, 345854214427467280000, 352989292955598830000, 356709693361304370000, 358623780475039570000, 359599569225044380000],
  [91373766164148038000, 195245162261865970000, 266002483478704640000, 309249633859319030000, 333979216598679630000, 347520250426674230000, 354722725903303670000, 358478969937544740000, 360411748521969610000, 361397154361545850000],
  [91204836759617908000, 195701610048828770000, 266979850761417450000, 310582088743985910000, 335528793869005970000, 349194017676896340000, 356464508345277710000, 360256934536152600000, 362208584654442060000, 363203701490395550000],
  [91032832810454614000, 196157205505211730000, 267959498158644120000, 311919436167128640000, 337085045640351850000, 350875549489529810000, 358214679021003790000, 362043629001378380000, 364014332417098630000, 365019255060796080000]]

/-- Rows from 1800 on. -/
def skRows18 : List (List Nat) := [
  [90857747672898739000, 196611933241609670000, 268941421370271830000, 313261687518601230000, 338647996403892870000, 352564879298284230000, 359973276836827060000, 363839095371587320000, 365829035564287250000, 366843859740196340000],
  [90679574878570812000, 197065777835836370000, 269925616019158540000, 314608854166564870000, 340217670707700310000, 354262040659466590000, 361740340866567810000, 365643375880094490000, 367652738061034550000, 368677560415343770000],
  [90498308136236050000, 197518723833805620000, 270912077650971860000, 315960947457102240000, 341794093156631230000, 355967067252266960000, 363515910352134710000, 367456512956003840000, 369485484084023490000, 370520402193339090000],
  [90313941333558773000, 197970755750421610000, 271900801734029640000, 317317978713831380000, 343377288412216820000, 357679992879041510000, 365300024704140640000, 369278549225050930000, 371327318022572960000, 372372430402698520000],
  [90126468538846941000, 198421858070477710000, 272891783659150070000, 318679959237517410000, 344967281192549710000, 359400851465594530000, 367092723502518480000, 371109527510447070000, 373178284479624090000, 374233690594417860000],
  [89935884002785668000, 198872015249564330000, 273885018739501500000, 320046900305686330000, 346564096272168050000, 361129677061463210000, 368894046497139140000, 372949490833727750000, 375038428272730150000, 376104228543043480000],
  [89742182160160500000, 199321211714984600000, 274880502210458230000, 321418813172235030000, 348167758481938710000, 362866503840197250000, 370704033608431400000, 374798482415604040000, 376907794435048680000, 377984090247748930000],
  [89545357631568359000, 199769431866679110000, 275878229229463590000, 322795709067042470000, 349778292708939180000, 364611366099642010000, 372522724928002760000, 376656545676816830000, 378786428216341060000, 379873321933414050000],
  [89345405225117566000, 200216660078159970000, 276878194875893210000, 324177599195579980000, 351395723896334110000, 366364298262218170000, 374350160719260140000, 378523724238994550000, 380674375083974390000, 381771970051711370000],
  [89142319938115652000, 200662880697452250000, 277880394150926470000, 325564494738520390000, 353020077043254390000, 368125334875202050000, 376186381418035730000, 380400061925513070000, 382571680723927500000, 383680081282195990000],
  [88936096958743535000, 201108078048043450000, 278884821977421430000, 326956406851346690000, 354651377204671100000, 369894510611005810000, 378031427633210520000, 382285602762359790000, 384478391041802650000, 385597702533402090000],
  [88726731667719175000, 201552236429842960000, 279891473199793850000, 328353346663959320000, 356289649491269290000, 371671860267454860000, 379885340147340490000, 384180390979000920000, 386394552163840050000, 387524880943942770000],
  [88514219639945407000, 201995340120148580000, 280900342583902230000, 329755325280285560000, 357934919069318790000, 373457418768068150000, 381748159917285560000, 386084471009250360000, 388320210437938020000, 389461663883615640000],
  [88298556646145845000, 202437373374621500000, 281911424816936980000, 331162353777884830000, 359587211160543150000, 375251221162334230000, 383619928074837520000, 387997887492143920000, 390255412434676210000, 391408098954514780000],
  [88079738654486095000, 202878320428269370000, 282924714507315100000, 332574443207555300000, 361246551041986610000, 377053302625988240000, 385500685927351430000, 389920685272814480000, 392200204948344730000, 393364233992145370000],
  [87857761832180081000, 203318165496437550000, 283940206184578660000, 333991604592940750000, 362912964045880080000, 378863698461288760000, 387390474958377030000, 391852909403372530000, 394154634997976650000, 395330117066546140000],
  [87632622547083511000, 203756892775808720000, 284957894299299460000, 335413848930135090000, 364586475559504350000, 380682444097293960000, 389289336828292310000, 393794605143787170000, 396118749828383960000, 397305796483414410000],
  [87404317369269707000, 204194486445409410000, 285977773222988290000, 336841187187287010000, 366267111025050220000, 382509575090134670000, 391197313374938290000, 395745817962773800000, 398092596911200910000, 399291320785238600000],
  [87172843072591266000, 204630930667625470000, 286999837248009150000, 338273630304205540000, 367954895939479000000, 384345127123290220000, 393114446614254540000, 397706593538681710000, 400076223945928840000, 401286738752434260000],
  [86938196636225457000, 205066209589224450000, 288024080587497950000, 339711189191962470000, 369649855854379150000, 386189136007861200000, 395040778740917090000, 399676977760386080000, 402069678860986320000, 403292099404486240000],
  [86700375246203720000, 205500307342386780000, 289050497375288480000, 341153874732499030000, 371352016375822050000, 388041637682842500000, 396976352128977250000, 401657016728183820000, 404073009814765020000, 405307452001096580000],
  [86459376296923865000, 205933208045742830000, 290079081665839900000, 342601697778224970000, 373061403164214930000, 389902668215395150000, 398921209332501640000, 403646756754692080000, 406086265196688170000, 407332846043335190000],
  [86215197392645632000, 206364895805419390000, 291109827434174130000, 344054669151625190000, 374778041934152480000, 391772263801118180000, 400875393086213340000, 405646244365749750000, 408109493628274920000, 409368331274800490000],
  [85967836348967333000, 206795354716091950000, 292142728575813140000, 345512799644860480000, 376501958454266430000, 393650460764318090000, 402838946306135310000, 407655526301321900000, 410142743964208520000, 411413957682779500000],
  [85717291194288087000, 207224568862045740000, 293177778906728030000, 346976100019370240000, 378233178547072170000, 395537295558279660000, 404811912090234370000, 409674649516408640000, 412186065293409290000, 413469775499418710000],
  [85463560171247205000, 207652522318242410000, 294214972163285180000, 348444581005475480000, 379971728088815300000, 397432804765534390000, 406794333719066870000, 411703661181955780000, 414239506940111970000, 415535835202896890000],
  [85206641738149194000, 208079199151396050000, 295254302002205980000, 349918253301978840000, 381717633009313440000, 399337025098129850000, 408786254656425490000, 413742608685770560000, 416303118464947770000, 417612187518604410000],
  [84946534570366744000, 208504583421054070000, 296295762000527040000, 351397127575768020000, 383470919291799220000, 401249993397895240000, 410787718549986910000, 415791539633437510000, 418376949666031230000, 419698883420327570000],
  [84683237561725980000, 208928659180686260000, 297339345655567020000, 352881214461416570000, 385231612972759820000, 403171746636709680000, 412798769231962740000, 417850501849241380000, 420461050580050840000, 421795974131440210000],
  [84416749825870829000, 209351410478780530000, 298385046384898540000, 354370524560785600000, 386999740141772190000, 405102321916767210000, 414819450719749410000, 419919543377090420000, 422555471483365310000, 423903511126097530000],
  [84147070697609044000, 209772821359945380000, 299432857526326870000, 355865068442624280000, 388775326941340930000, 407041756470842730000, 416849807216580600000, 421998712481444380000, 424660262893104380000, 426021546130438360000],
  [83874199734235308000, 210192875866019090000, 300482772337873240000, 357364856642170770000, 390558399566730390000, 408990087662554740000, 418889883112180560000, 424088057648244420000, 426775475568272390000, 428150131123791360000],
  [83598136716835386000, 210611558037185400000, 301534783997762850000, 358869899660755000000, 392348984265796790000, 410947352986630320000, 420939722983420190000, 426187627585848940000, 428901160510859640000, 430289318339887210000],
  [83318881651567811000, 211028851913095230000, 302588885604420100000, 360380207965398050000, 394147107338817080000, 412913590069166890000, 422999371594971030000, 428297471225969340000, 431037368966956550000, 432439160268076160000],
  [83036434770924969000, 211444741533996170000, 303645070176469080000, 361895791988413040000, 395952795138317380000, 414888836667893780000, 425068873899965560000, 430417637724611220000, 433184152427871890000, 434599709654551860000],
  [82750796534970930000, 211859210941866440000, 304703330652738520000, 363416662127007960000, 397766074068896470000, 416873130672433090000, 427148275040653060000, 432548176463018570000, 435341562631257170000, 436771019503579440000],
  [82461967632557726000, 212272244181555800000, 305763659892274220000, 364942828742884250000, 399586970587051950000, 418866510104559830000, 429237620349062270000, 434689137048620780000, 437509651562235370000, 438953143078730570000],
  [82169948982519919000, 212683825301933280000, 306826050674355200000, 366474302161839680000, 401415511200999720000, 420869013118460870000, 431336955347661370000, 436840569315982970000, 439688471454534100000, 441146133904124100000],
  [81874741734842424000, 213093938357038740000, 307890495698517950000, 368011092673369340000, 403251722470493960000, 422880678000993490000, 433446325750021290000, 439002523327760350000, 441878074791623890000, 443350045765670720000],
  [81576347271810221000, 213502567407243220000, 308956987584584120000, 369553210530266240000, 405095631006645080000, 424901543171941450000, 435565777461478680000, 441175049375654990000, 444078514307859830000, 445564932712325500000],
  [81274767209128726000, 213909696520411220000, 310025518872695300000, 371100665948223610000, 406947263471734380000, 426931647184272510000, 437695356579802960000, 443358197981376550000, 446289842989631370000, 447790849057345120000],
  [80970003397024010000, 214315309773072450000, 311096082023353590000, 372653469105435840000, 408806646579028710000, 428971028724393630000, 439835109395861010000, 445552019897605790000, 448512114076512310000, 450027849379550320000],
  [80662057921316782000, 214719391251595810000, 312168669417468850000, 374211630142201050000, 410673807092590660000, 431019726612404340000, 441985082394286520000, 447756566108962310000, 450745381062420240000, 452275988524595270000],
  [80350933104471292000, 215121925053370770000, 313243273356408000000, 375775159160523510000, 412548771827089320000, 433077779802352290000, 444145322254148210000, 449971887832974430000, 452989697696777380000, 454535321606241660000],
  [80036631506619771000, 215522895287992480000, 314319886062056960000, 377344066223714520000, 414431567647606750000, 435145227382483240000, 446315875849620180000, 452198036521052780000, 455245117985677740000, 456805904007640210000],
  [79719155926560537000, 215922286078453460000, 315398499676880830000, 378918361355997490000, 416322221469444310000, 437222108575495210000, 448496790250654310000, 454435063859469470000, 457511696193059430000, 459087791382615680000],
  [79398509402731215000, 216320081562338480000, 316479106263996560000, 380498054542108830000, 418220760257926040000, 439308462738786820000, 450688112723652170000, 456683021770335930000, 459789486841880700000, 461381039656959420000],
  [79074695214153376000, 216716265893026260000, 317561697807248190000, 382083155726902550000, 420127211028199610000, 441404329364708580000, 452889890732139750000, 458941962412588220000, 462078544715302630000, 463685705029728330000],
  [78747716881354124000, 217110823240892980000, 318646266211288000000, 383673674814954240000, 422041600845036670000, 443509748080810890000, 455102171937442790000, 461211938182975010000, 464378924857874460000, 466001843974547250000],
  [78417578167256766000, 217503737794524090000, 319732803301665700000, 385269621670164150000, 423963956822630440000, 445624758650091380000, 457325004199363010000, 463493001717046550000, 466690682576725800000, 468329513240920150000],
  [78084283078047670000, 217894993761926890000, 320821300824922110000, 386871006115363850000, 425894306124391000000, 447749400971242050000, 459558435576856720000, 465785205890150710000, 469013873442763800000, 470668769855545840000],
  [77747835864012585000, 218284575371749810000, 321911750448688250000, 388477837931919260000, 427832675962739270000, 449883715078894130000, 461802514328712670000, 468088603818428650000, 471348553291873200000, 473019671123638910000],
  [77408241020347296000, 218672466874504060000, 323004143761793480000, 390090126859337580000, 429779093598898150000, 452027741143863790000, 464057288914234090000, 470403248859816880000, 473694778226123820000, 475382274630258950000],
  [77065503287938972000, 219058652543791780000, 324098472274376550000, 391707882594874430000, 431733586342682550000, 454181519473394080000, 466322807993918730000, 472729194615050700000, 476052604614981830000, 477756638241643610000],
  [76719627654118244000, 219443116677534380000, 325194727418004590000, 393331114793138150000, 433696181552287670000, 456345090511398210000, 468599120430142070000, 475066494928673140000, 478422089096525500000, 480142820106548910000],
  [76370619353383282000, 219825843599207840000, 326292900545797350000, 394959833065699820000, 435666906634074200000, 458518494838701830000, 470886275287841380000, 477415203890044100000, 480803288578668500000, 482540878657595650000],
  [76018483868095441000, 220206817659080180000, 327392982932558920000, 396594046980699060000, 437645789042351740000, 460701773173281090000, 473184321835200870000, 479775375834357030000, 483196260240384590000, 484950872612620540000],
  [75663226929143457000, 220586023235452290000, 328494965774914380000, 398233766062456140000, 439632856279162320000, 462894966370504260000, 475493309544338330000, 482147065343655310000, 485601061532940800000, 487372860976036380000],
  [75304854516579325000, 220963444735901770000, 329598840191452190000, 399878999791076880000, 441628135894057420000, 465098115423367760000, 477813288091991860000, 484530327247853940000, 488017750181132860000, 489806903040194920000],
  [74943372860222193000, 221339066598531250000, 330704597222875480000, 401529757602066990000, 443631655483880120000, 467311261462734330000, 480144307360209130000, 486925216625765430000, 490446384184528910000, 492253058386758540000],
  [74578788440235327000, 221712873293217480000, 331812227832156190000, 403186048885940170000, 445643442692536140000, 469534445757569530000, 482486417437037800000, 489331788806126430000, 492887021818714740000, 494711386888076870000],
  [74211107987668487000, 222084849322865430000, 332921722904697740000, 404847882987832140000, 447663525210772570000, 471767709715173840000, 484839668617215890000, 491750099368630460000, 495339721636547210000, 497181948708570300000],
  [73840338484971083000, 222454979224663480000, 334033073248503510000, 406515269207110730000, 449691930775946770000, 474011094881420070000, 487204111402863790000, 494180204144963610000, 497804542469410920000, 499664804306119370000],
  [73466487166474179000, 222823247571341480000, 335146269594350950000, 408188216796992080000, 451728687171797760000, 476264642940982590000, 489579796504178540000, 496622159219841100000, 500281543428480640000, 502160014433459810000],
  [73089561518842633000, 223189638972432300000, 336261302595972530000, 409866734964152160000, 453773822228215380000, 478528395717570440000, 491966774840128410000, 499076020932052170000, 502770783905991390000, 504667640139586760000],
  [72709569281489472000, 223554138075533230000, 337378162830243300000, 411550832868344260000, 455827363821004530000, 480802395174156900000, 494365097539147260000, 501541845875503320000, 505272323576506870000, 507187742771159970000],
  [72326518446965332000, 223916729567571170000, 338496840797374240000, 413240519622014080000, 457889339871651370000, 483086683413208430000, 496774815939833750000, 504019690900268770000, 507786222398201480000, 509720383973922160000],
  [71940417261312797000, 224277398176070230000, 339617326921111410000, 414935804289917110000, 459959778347084960000, 485381302676913040000, 499195981591646690000, 506509613113642840000, 510312540614143330000, 512265625694117380000],
  [71551274224385022000, 224636128670418240000, 340739611548942720000, 416636695888736810000, 462038707259438570000, 487686295347405930000, 501628646255607100000, 509011669881194730000, 512851338753581690000, 514823530179920770000],
  [71159098090136499000, 224992905863137920000, 341863684952310560000, 418343203386703890000, 464126154665807530000, 490001703946995490000, 504072861904995670000, 511525918827829720000, 515402677633240550000, 517394159982871640000],
  [70763897866878533000, 225347714611157270000, 342989537326830680000, 420055335703216510000, 466222148668006600000, 492327571138388490000, 506528680726056170000, 514052417838852920000, 517966618358620460000, 519977577959313990000],
  [70365682817499192000, 225700539817082380000, 344117158792516420000, 421773101708462160000, 468326717412324340000, 494663939724910910000, 508996155118697560000, 516591225061032170000, 520543222325300370000, 522573847271844530000],
  [69964462459655555000, 226051366430470800000, 345246539394011450000, 423496510223039250000, 470439889089276860000, 497010852650731080000, 511475337697197110000, 519142398903671750000, 523132551220250820000, 525183031390765160000],
  [69560246565924896000, 226400179449105120000, 346377669100827400000, 425225570017582380000, 472561691933358060000, 499368353001080230000, 513966281290905270000, 521705998039684870000, 525734667023145750000, 527805194095544720000],
  [69153045163928145000, 226746963920268880000, 347510537807587670000, 426960289812385490000, 474692154222790040000, 501736484002472060000, 516469038944952770000, 524282081406670430000, 528349632007685250000, 530440399476283740000],
  [68742868536414939000, 227091704942020940000, 348645135334278490000, 428700678277029350000, 476831304279268560000, 504115289022918240000, 518983663920954850000, 526870708207992760000, 530977508742921930000, 533088711935190360000],
  [68329727221316791000, 227434387664473080000, 349781451426506680000, 430446744030009100000, 478979170467710880000, 506504811572149440000, 521510209697722550000, 529471937913869480000, 533618360094591960000, 535750196188058410000],
  [67913632011763758000, 227774997291062790000, 350919475755760820000, 432198495638361050000, 481135781195997810000, 508905095301826930000, 524048729971970380000, 532085830262454820000, 536272249226451230000, 538424917265754140000],
  [67494593956067717000, 228113519079832900000, 352059197919684760000, 433955941617295500000, 483301164914715750000, 511316184005758730000, 526599278659024340000, 534712445260932530000, 538939239601618940000, 541112940515712240000],
  [67072624357670765000, 228449938344705010000, 353200607442349880000, 435719090429827200000, 485475350116896960000, 513738121620111790000, 529161909893537620000, 537351843186612550000, 541619394983925080000, 543814331603433070000],
  [66647734775056283000, 228784240456755270000, 354343693774540670000, 437487950486406150000, 487658365337757860000, 516170952223623640000, 531736678030200420000, 540004084588026960000, 544312779439263590000, 546529156513990700000],
  [66219937021628719000, 229116410845489980000, 355488446294042470000, 439262530144555850000, 489850239154434260000, 518614720037814280000, 534323637644451450000, 542669230286032530000, 547019457336951450000, 549257481553547140000],
  [65789243165551778000, 229446435000119800000, 356634854305935890000, 441042837708505440000, 492051000185716850000, 521069469427191350000, 536922843533196640000, 545347341374917360000, 549739493351094730000, 551999373350871460000],
  [65355665529557336000, 229774298470831750000, 357782907042900390000, 442828881428828260000, 494260677091783340000, 523535244899460790000, 539534350715520810000, 548038479223508900000, 552472952461952490000, 554754898858869420000],
  [64919216690714945000, 230099986870063360000, 358932593665521940000, 444620669502081570000, 496479298573930310000, 526012091105734100000, 542158214433407280000, 550742705476286900000, 555219899957321910000, 557524125356115510000],
  [64479909480164993000, 230423485873771930000, 360083903262605360000, 446418210070445350000, 498706893374299740000, 528500052840729320000, 544794490152452290000, 553460082054499810000, 557980401433910480000, 560307120448395040000],
  [64037756982818425000, 230744781222706420000, 361236824851498270000, 448221511221365440000, 500943490275609030000, 530999175042977330000, 547443233562586060000, 556190671157285040000, 560754522798726620000, 563103952070251770000],
  [63592772537017464000, 231063858723672130000, 362391347378415660000, 450030580987194890000, 503189118100875300000, 533509502795023400000, 550104500578791230000, 558934535262790910000, 563542330270472850000, 565914688486543920000],
  [63144969734161366000, 231380704250800730000, 363547459718775060000, 451845427344842950000, 505443805713137850000, 536031081323629640000, 552778347341823520000, 561691737129305760000, 566343890380941240000, 568739398294004220000],
  [62694362418295541000, 231695303746811440000, 364705150677534900000, 453666058215417890000, 507707582015182730000, 538563955999969870000, 555464830218933450000, 564462339796387820000, 569159269976418970000, 571578150422811680000],
  [62240964685663001000, 232007643224275200000, 365864408989542140000, 455492481463877940000, 509980475949259220000, 541108172339833550000, 558164005804588800000, 567246406585998010000, 571988536219094510000, 574431014138164000000],
  [61784790884222923000, 232317708766872940000, 367025223319882580000, 457324704898681540000, 512262516496802210000, 543663776003817320000, 560875930921198030000, 570044001103639950000, 574831756588477290000, 577298059041863710000],
  [61325855613124786000, 232625486530654210000, 368187582264242310000, 459162736271437940000, 514553732678146410000, 546230812797522720000, 563600662619835320000, 572855187239501020000, 577688998882813110000, 580179355073906940000],
  [60864173722154670000, 232930962745290680000, 369351474349270350000, 461006583276562960000, 516854153552241180000, 548809328671751690000, 566338258180966840000, 575680029169597260000, 580560331220514200000, 583074972514080360000],
  [60399760311137293000, 233234123715328420000, 370516888032950300000, 462856253550932790000, 519163808216365100000, 551399369722694100000, 569088775115173640000, 578518591356920850000, 583445822041589120000, 585984981983567300000],
  [59932630729306061000, 233534955821437180000, 371683811704979550000, 464711754673543920000, 521482725805834990000, 554000982192123460000, 571852271163884040000, 581370938552593920000, 586345540109082130000, 588909454446556730000],
  [59462800574631040000, 233833445521653080000, 372852233687150920000, 466573094165170400000, 523810935493719270000, 556614212467582140000, 574628804300098110000, 584237135797026410000, 589259554510514590000, 591848461211863850000],
  [58990285693117719000, 234129579352625020000, 374022142233743420000, 468440279488027240000, 526148466490542370000, 559239107082574290000, 577418432729118410000, 587117248421071600000, 592187934659336390000, 594802073934556970000],
  [58515102178056250000, 234423343930848210000, 375193525531918430000, 470313318045431580000, 528495348043994890000, 561875712716747190000, 580221214889281580000, 590011342047191190000, 595130750296379850000, 597770364617587040000],
  [58037266369245132000, 234714725953902030000, 376366371702122280000, 472192217181470700000, 530851609438632300000, 564524076196081140000, 583037209452687550000, 592919482590623880000, 598088071491321820000, 600753405613433160000]]

/-- Rows from 1900 on. -/
def skRows19 : List (List Nat) := [
  [57556794852177302000, 235003712201679760000, 377540668798494290000, 474076984180667350000, 533217279995584990000, 567184244493069920000, 585866475325931280000, 595841736260555810000, 601059968644148350000, 603751269625745880000],
  [57073704457173816000, 235290289537613940000, 378716404809281700000, 475967626267650550000, 535592389072256370000, 569856264726902210000, 588709071650838860000, 598778169561290820000, 604046512486629660000, 606764029711005960000],
  [56588012258498535000, 235574444909898900000, 379893567657260120000, 477864150606826300000, 537976966062019280000, 572540184163646050000, 591565057805197750000, 601728849293434510000, 607047774083798620000, 609791759280186030000],
  [56099735573428074000, 235856165352708290000, 381072145200160360000, 479766564302052170000, 540371040393921920000, 575236050216424770000, 594434493403494410000, 604693842555070190000, 610063824835430980000, 612834532100417500000],
  [55608891961279897000, 236135437987407880000, 382252125231102250000, 481674874396311900000, 542774641532375980000, 577943910445594900000, 597317438297648610000, 607673216742950050000, 613094736477543530000, 615892422296672960000],
  [55115499222414134000, 236412250023763320000, 383433495479032880000, 483589087871395650000, 545187798976857100000, 580663812558924190000, 600213952577750450000, 610667039553677850000, 616140581083882810000, 618965504353448660000],
  [54619575397184567000, 236686588761141630000, 384616243609170680000, 485509211647577210000, 547610542261596000000, 583395804411763310000, 603124096572796310000, 613675378984906430000, 619201431067431970000, 622053853116456220000],
  [54121138764862041000, 236958441589710330000, 385800357223457960000, 487435252583298170000, 550042900955269420000, 586139934007220420000, 606047930851431490000, 616698303336532420000, 622277359181916730000, 625157543794323200000],
  [53620207842520480000, 237227795991627220000, 386985823861018260000, 489367217474854510000, 552484904660693330000, 588896249496334120000, 608985516222684150000, 619735881211895930000, 625368438523321140000, 628276651960301690000],
  [53116801383878282000, 237494639542228600000, 388172630998617100000, 491305113056079320000, 554936583014505100000, 591664799178240770000, 611936913736708890000, 622788181518984740000, 628474742531405890000, 631411253553982420000],
  [52610938378110622000, 237758959911207710000, 389360766051132960000, 493248945998036150000, 557397965686859290000, 594445631500342910000, 614902184685526270000, 625855273471642160000, 631596344991237290000, 634561424883016920000],
  [52102638048620274000, 238020744863790430000, 390550216372030300000, 495198722908708480000, 559869082381104440000, 597238795058477880000, 617881390603765350000, 628937226590776670000, 634733320034717270000, 637727242624849370000],
  [51591919851770952000, 238279982261902310000, 391740969253841500000, 497154450332695620000, 562349962833473050000, 600044338597083280000, 620874593269404860000, 632034110705579580000, 637885742142121460000, 640908783828452400000],
  [51078803475587090000, 238536660065330110000, 392933011928653100000, 499116134750906050000, 564840636812758980000, 602862311009356830000, 623881854704518070000, 635145995954740310000, 641053686143646770000, 644106125916075860000],
  [50563308838415817000, 238790766332877070000, 394126331568596780000, 501083782580260650000, 567341134120004860000, 605692761337422670000, 626903237176016930000, 638272952787672380000, 644237227220958330000, 647319346684996690000],
  [50045456087546875000, 239042289223512280000, 395320915286348720000, 503057400173392400000, 569851484588172920000, 608535738772490560000, 629938803196396830000, 641415051965736120000, 647436440908749410000, 650548524309283670000],
  [49525265597803264000, 239291216997508630000, 396516750135631870000, 505036993818347320000, 572371718081829410000, 611391292655013130000, 632988615524480710000, 644572364563470110000, 650651403096299210000, 653793737341565210000],
  [49002757970094499000, 239537538017581150000, 397713823111728320000, 507022569738297400000, 574901864496818900000, 614259472474843800000, 636052737166168390000, 647744961969824120000, 653882190029048460000, 657055064714803460000],
  [48477954029925129000, 239781240750009870000, 398912121151989980000, 509014134091242080000, 577441953759938340000, 617140327871394170000, 639131231375182800000, 650932915889397390000, 657128878310169420000, 660332585744083600000],
  [47950874825877343000, 240022313765761770000, 400111631136361500000, 511011692969726930000, 579992015828611820000, 620033908633785050000, 642224161653818130000, 654136298343679150000, 660391544902150460000, 663626380128403910000],
  [47421541628049214000, 240260745741600220000, 401312339887908490000, 513015252400555010000, 582552080690560860000, 622940264701001170000, 645331591753688040000, 657355181672291790000, 663670267128379950000, 666936527952476490000],
  [46889975926467112000, 240496525461190350000, 402514234173344750000, 515024818344499980000, 585122178363476910000, 625859446162041030000, 648453585676476600000, 660589638534241350000, 666965122674745390000, 670263109688535640000],
  [46356199429451142000, 240729641816194080000, 403717300703573760000, 517040396696033300000, 587702338894689370000, 628791503256066030000, 651590207674689230000, 663839741909169060000, 670276189591227590000, 673606206198154920000],
  [45820234061944409000, 240960083807355780000, 404921526134227940000, 519061993283040700000, 590292592360833980000, 631736486372546200000, 654741522252401120000, 667105565098608080000, 673603546293510940000, 676965898734071540000],
  [45282101963823665000, 241187840545584010000, 406126897066219850000, 521089613866548060000, 592892968867518630000, 634694446051407680000, 657907594166011190000, 670387181727240100000, 676947271564595330000, 680342268942018880000],
  [44741825488154988000, 241412901253019870000, 407333400046293480000, 523123264140452960000, 595503498548987880000, 637665432983178460000, 661088488424996350000, 673684665744163520000, 680307444556413120000, 683735398862566180000],
  [44199427199420556000, 241635255264098960000, 408541021567583930000, 525162949731250110000, 598124211567789280000, 640649498009126180000, 664284270292659570000, 676998091424157570000, 683684144791458110000, 687145370932968350000],
  [43654929871721024000, 241854892026604150000, 409749748070180660000, 527208676197768120000, 600755138114431710000, 643646692121401910000, 667495005286889760000, 680327533368954910000, 687077452164412520000, 690572267989023710000],
  [43108356486920650000, 242071801102709820000, 410959565941699630000, 529260449030903630000, 603396308407049280000, 646657066463179660000, 670720759180915120000, 683673066508513450000, 690487446943788720000, 694016173266936990000],
  [42559730232781583000, 242285972170013380000, 412170461517853970000, 531318273653362700000, 606047752691060590000, 649680672328791010000, 673961598004054420000, 687034766102298860000, 693914209773570430000, 697477170405192530000],
  [42009074501052159000, 242497395022563820000, 413382421083035970000, 533382155419400590000, 608709501238826500000, 652717561163862590000, 677217588042478110000, 690412707740566620000, 697357821674867930000, 700955343446438620000],
  [41456412885514243000, 242706059571872880000, 414595430870901340000, 535452099614567080000, 611381584349308230000, 655767784565450040000, 680488795839963130000, 693806967345642730000, 700818364047570470000, 704450776839373630000],
  [40901769180019303000, 242911955847924630000, 415809477064959350000, 537528111455456760000, 614064032347720220000, 658831394282168530000, 683775288198650520000, 697217621173221610000, 704295918672011580000, 707963555440647150000],
  [40345167376466824000, 243115074000165990000, 417024545799168260000, 539610196089454600000, 616756875585189100000, 661908442214325320000, 687077132179803260000, 700644745813652330000, 707790567710639860000, 711493764516763830000],
  [39786631662749768000, 243315404298494550000, 418240623158531550000, 541698358594493560000, 619460144438403800000, 664998980414046040000, 690394395104565910000, 704088418193245080000, 711302393709695060000, 715041489746000130000],
  [39226186420701088000, 243512937134235410000, 419457695179708490000, 543792603978812570000, 622173869309271320000, 668103061085404740000, 693727144554722730000, 707548715575560980000, 714831479600891990000, 718606817220327150000],
  [38663856223958876000, 243707663021100390000, 420675747851619540000, 545892937180712410000, 624898080624559650000, 671220736584546280000, 697075448373458470000, 711025715562726420000, 718377908703107800000, 722189833447340670000],
  [38099665835831235000, 243899572596145840000, 421894767116060170000, 547999363068318870000, 627632808835558610000, 674352059419809800000, 700439374666120380000, 714519496096738480000, 721941764724080000000, 725790625352202290000],
  [37533640207127753000, 244088656620714050000, 423114738868323570000, 550111886439355270000, 630378084417720700000, 677497082251853460000, 703818991800977400000, 718030135460778320000, 725523131762107590000, 729409280279589290000],
  [36965804473939726000, 244274905981365810000, 424335648957820890000, 552230512020901340000, 633133937870307920000, 680655857893770700000, 707214368409981420000, 721557712280524790000, 729122094307762540000, 733045885995648790000],
  [36396183955404005000, 244458311690801290000, 425557483188711510000, 554355244469173060000, 635900399716045730000, 683828439311211180000, 710625573389533360000, 725102305525481490000, 732738737245603570000, 736700530689966220000],
  [35824804151435109000, 244638864888767630000, 426780227320535830000, 556486088369292250000, 638677500500757560000, 687014879622495410000, 714052675901242330000, 728663994510293510000, 736373145855898640000, 740373302977538010000],
  [35251690740424071000, 244816556842960890000, 428003867068853070000, 558623048235075360000, 641465270793019520000, 690215232098731590000, 717495745372692890000, 732242858896079540000, 740025405816356340000, 744064291900754070000],
  [34676869576895746000, 244991378949908360000, 429228388105880490000, 560766128508799590000, 644263741183793150000, 693429550163923270000, 720954851498204150000, 735838978691763070000, 743695603203857750000, 747773586931391730000],
  [34100366689162151000, 245163322735846570000, 430453776061143600000, 562915333561000870000, 647072942286076150000, 696657887395088380000, 724430064239600990000, 739452434255407850000, 747383824496202440000, 751501277972613350000],
  [33522208276914663000, 245332379857582880000, 431680016522124900000, 565070667690256270000, 649892904734536540000, 699900297522360710000, 727921453826974370000, 743083306295555300000, 751090156573854140000, 755247455360974930000],
  [32942420708810434000, 245498542103346900000, 432907095034919250000, 567232135122977880000, 652723659185155400000, 703156834429103370000, 731429090759449510000, 746731675872572160000, 754814686721700710000, 759012209868447530000],
  [32361030520019117000, 245661801393627750000, 434134997104892450000, 569399740013204040000, 655565236314867630000, 706427552152010360000, 734953045805951890000, 750397624399992580000, 758557502630811900000, 762795632704439290000],
  [31778064409729939000, 245822149782001950000, 435363708197345160000, 571573486442400020000, 658417666821190960000, 709712504881213070000, 738493390005972580000, 754081233645873760000, 762318692400212770000, 766597815517834120000],
  [31193549238672416000, 245979579455947980000, 436593213738181500000, 573753378419260660000, 661280981421875640000, 713011746960379940000, 742050194670339500000, 757782585734145810000, 766098344538655770000, 770418850399035460000],
  [30607512026537727000, 246134082737644870000, 437823499114576960000, 575939419879510690000, 664155210854527670000, 716325332886818540000, 745623531381981120000, 761501763145975400000, 769896547966408270000, 774258829882014780000],
  [30019979949458389000, 246285652084763410000, 439054549675659210000, 578131614685716720000, 667040385876251920000, 719653317311573230000, 749213471996698190000, 765238848721123580000, 773713392017035930000, 778117846946381860000],
  [29430980337374551000, 246434280091239520000, 440286350733182950000, 580329966627097570000, 669936537263282170000, 722995755039523400000, 752820088643928020000, 768993925659315240000, 777548966439205900000, 781995995019449050000],
  [28840540671449210000, 246579959488039040000, 441518887562214910000, 582534479419337450000, 672843695810612990000, 726352701029473470000, 756443453727521970000, 772767077521609560000, 781403361398483650000, 785893367978314110000],
  [28248688581390336000, 246722683143905860000, 442752145401821120000, 584745156704406630000, 675761892331634750000, 729724210394251950000, 760083639926506630000, 776558388231768930000, 785276667479149040000, 789810060151947210000],
  [27655451842803221000, 246862444066097480000, 443986109455757670000, 586962002050381850000, 678691157657764000000, 733110338400797980000, 763740720195860150000, 780367942077644040000, 789168975686008630000, 793746166323293200000],
  [27060858374488794000, 246999235401109660000, 445220764893162810000, 589185018951272510000, 681631522638069360000, 736511140470253460000, 767414767767278790000, 784195823712550370000, 793080377446221730000, 797701781731374070000],
  [26464936235715036000, 247133050435383920000, 446456096849259580000, 591414210826847860000, 684583018138905540000, 739926672178046310000, 771105856149952200000, 788042118156654810000, 797010964611130300000, 801677002073407420000],
  [25867713623467944000, 247263882596004460000, 447692090426053400000, 593649581022468900000, 687545675043542690000, 743356989253982080000, 774814059131331500000, 791906910798366610000, 800960829458098210000, 805671923506932840000],
  [25269218869685708000, 247391725451375390000, 448928730693036570000, 595891132808927580000, 690519524251787200000, 746802147582321770000, 778539450777905320000, 795790287395728660000, 804930064692353840000, 809686642651944680000],
  [24669480438446353000, 247516572711898030000, 450166002687901410000, 598138869382281890000, 693504596679614950000, 750262203201866430000, 782282105435966770000, 799692334077817260000, 808918763448844170000, 813721256593037510000],
  [24068526923188265000, 247638418230612220000, 451403891417244910000, 600392793863699930000, 696500923258795200000, 753737212306036630000, 786042097732391420000, 803613137346138150000, 812927019294089840000, 817775862881558350000],
  [23466387043828058000, 247757256003849460000, 452642381857290500000, 602652909299306930000, 699508534936514100000, 757227231242952100000, 789819502575407670000, 807552784076037140000, 816954926228054990000, 821850559537770200000],
  [22863089643911785000, 247873080171843900000, 453881458954601140000, 604919218660036730000, 702527462675002320000, 760732316515504210000, 793614395155372800000, 811511361518105770000, 821002578686017670000, 825945445053022590000],
  [22258663687712076000, 247985885019355230000, 455121107626800470000, 607191724841480760000, 705557737451153690000, 764252524781431910000, 797426850945543890000, 815488957299594030000, 825070071540448870000, 830060618391934790000],
  [21653138257360684000, 248095664976257960000, 456361312763301660000, 609470430663748840000, 708599390256156260000, 767787912853396650000, 801256945702856440000, 819485659425825520000, 829157500102901570000, 834196178994583760000],
  [21046542549863340000, 248202414618126420000, 457602059226030030000, 611755338871326050000, 711652452095105300000, 771338537699050470000, 805104755468692650000, 823501556281622140000, 833264960125902340000, 838352226778708130000],
  [20438905874222112000, 248306128666803600000, 458843331850153800000, 614046452132945290000, 714716953986631710000, 774904456441102730000, 808970356569666320000, 827536736632722760000, 837392547804856720000, 842528862141912360000],
  [19830257648377699000, 248406801990946220000, 460085115444815950000, 616343773041447500000, 717792926962518170000, 778485726357390990000, 812853825618387700000, 831591289627216290000, 841540359779949010000, 846726185963892930000],
  [19220627396288728000, 248504429606571710000, 461327394793874800000, 618647304113653100000, 720880402067324400000, 782082404880943270000, 816755239514244670000, 835665304796970990000, 845708493138067290000, 850944299608660360000],
  [18610044744903645000, 248599006677570010000, 462570154656633700000, 620957047790243740000, 723979410358001730000, 785694549600041150000, 820674675444181930000, 839758872059067850000, 849897045414719330000, 855183304926781410000],
  [17998539421117055000, 248690528516227780000, 463813379768588220000, 623273006435637210000, 727089982903513230000, 789322218258281750000, 824612210883469810000, 843872081717247260000, 854106114595964970000, 859443304257624390000],
  [17386141248761918000, 248778990583696150000, 465057054842169080000, 625595182337868590000, 730212150784457110000, 792965468754636140000, 828567923596487680000, 848005024463343800000, 858335799120351070000, 863724400431622130000],
  [16772880145500903000, 248864388490493080000, 466301164567482830000, 627923577708480280000, 733345945092677700000, 796624359143505490000, 832541891637496030000, 852157791378743030000, 862586197880859660000, 868026696772530970000],
  [16158786119776808000, 248946717996942930000, 467545693613065640000, 630258194682411400000, 736491396930886060000, 800298947634779380000, 836534193351419210000, 856330473935825620000, 866857410226854250000, 872350297099715340000],
  [15543889267713650000, 249025975013641100000, 468790626626628130000, 632599035317892520000, 739648537412276430000, 803989292593887520000, 840544907374616510000, 860523163999425080000, 871149535966041500000, 876695305730430860000],
  [14928219770056077000, 249102155601873540000, 470035948235812790000, 634946101596339800000, 742817397660141880000, 807695452541847160000, 844574112635665290000, 864735953828286720000, 875462675366436850000, 881061827482120140000],
  [14311807888851091000, 249175255974031810000, 471281643048945650000, 637299395422258660000, 745998008807491450000, 811417486155321610000, 848621888356136940000, 868968936076532690000, 879796929158336290000, 885449967674723500000],
  [13694683964607036000, 249245272494020430000, 472527695655791950000, 639658918623153940000, 749190401996661200000, 815155452266659090000, 852688314051374690000, 873222203795123720000, 884152398536298570000, 889859832132989140000],
  [13076878412869137000, 249312201677626740000, 473774090628316660000, 642024672949428220000, 752394608378936900000, 818909409863944450000, 856773469531272760000, 877495850433338440000, 888529185161132550000, 894291527188806450000],
  [12458421721225505000, 249376040192912320000, 475020812521446070000, 644396660074306400000, 755610659114158030000, 822679418091037620000, 860877434901056170000, 881789969840238160000, 892927391161892010000, 898745159683535970000],
  [11839344446063479000, 249436784860531780000, 476267845873825420000, 646774881593742410000, 758838585370341320000, 826465536247621540000, 865000290562057520000, 886104656266153310000, 897347119137878680000, 903220836970358820000],
  [11219677209303568000, 249494432654099320000, 477515175208586500000, 649159339026350480000, 762078418323290040000, 830267823789236140000, 869142117212499570000, 890440004364159710000, 901788472160652390000, 907718666916634050000],
  [10599450695238931000, 249548980700491950000, 478762785034113070000, 651550033813314330000, 765330189156202540000, 834086340327321430000, 873302995848270310000, 894796109191572040000, 906251553776048930000, 912238757906261740000],
  [9978695647574137600, 249600426280159600000, 480010659844805290000, 653946967318335790000, 768593929059292910000, 837921145629249690000, 877483007763705690000, 899173066211426900000, 910736468006201780000, 916781218842060870000],
  [9357442865602978700, 249648766827409610000, 481258784121851910000, 656350140827541730000, 771869669229398150000, 841772299618360860000, 881682234552367720000, 903570971293982340000, 915243319351579320000, 921346159148156980000],
  [8735723201652225200, 249693999930678150000, 482507142333997940000, 658759555549446980000, 775157440869594040000, 845639862373995470000, 885900758107825650000, 907989920718212830000, 919772212793022240000, 925933688772378360000],
  [8113567557290136300, 249736123332790440000, 483755718938314820000, 661175212614869670000, 778457275188802140000, 849523894131522520000, 890138660624436700000, 912430011173313790000, 924323253793791880000, 930543918188660780000],
  [7491006880381647500, 249775134931191990000, 485004498380977530000, 663597113076894730000, 781769203401408760000, 853424455282371760000, 894396024598123060000, 916891339760203320000, 928896548301620380000, 935176958399468570000],
  [6868072161898801900, 249811032778188000000, 486253465098034410000, 666025257910804800000, 785093256726865360000, 857341606374058870000, 898672932827154660000, 921374003993038370000, 933492202750781710000, 939832920938219800000],
  [6244794432052083900, 249843815081126990000, 487502603516178250000, 668459648014043780000, 788429466389304220000, 861275408110203980000, 902969468412929910000, 925878101800720170000, 938110324064153730000, 944511917871724170000],
  [5621204757963367700, 249873480202601940000, 488751898053534080000, 670900284206167210000, 791777863617159410000, 865225921350561870000, 907285714760756590000, 930403731528421600000, 942751019655299950000, 949214061802632240000],
  [4997334239536174700, 249900026660630190000, 490001333120423600000, 673347167228796390000, 795138479642756080000, 869193207111038980000, 911621755580629190000, 934950991939099030000, 947414397430554220000, 953939465871891490000],
  [4373214006513515700, 249923453128806620000, 491250893120148910000, 675800297745594140000, 798511345701942600000, 873177326563712940000, 915977674888011960000, 939519982215025750000, 952100565791111350000, 958688243761220750000],
  [3748875214855075600, 249943758436431600000, 492500562449769420000, 678259676342217070000, 801896493033682600000, 877178341036847780000, 920353557004625730000, 944110801959312410000, 956809633635129720000, 963460509695582500000],
  [3124349044176821700, 249960941568646620000, 493750325500879770000, 680725303526297010000, 805293952879680420000, 881196312014907450000, 924749486559217400000, 948723551197451330000, 961541710359839370000, 968256378445680130000],
  [2499666693222938000, 249975001666555950000, 495000166660389370000, 683197179727406120000, 808703756483981520000, 885231301138575510000, 929165548488344980000, 953358330378846990000, 966296905863653910000, 973075965330452260000],
  [1874859379022344300, 249985938027311670000, 496250070311308020000, 685675305297052890000, 812125935092577470000, 889283370204757560000, 933601828037165180000, 958015240378352950000, 971075330548301860000, 977919386219591400000],
  [1249958329859348000, 249993750104107880000, 497500020833517410000, 688159680508639520000, 815560519953024250000, 893352581166588890000, 938058410760209680000, 962694382497826460000, 975877095320949020000, 982786757536055490000],
  [624994763057248710, 249998437506475550000, 498750002604551990000, 690650305557471640000, 819007542314061590000, 897438996133457230000, 942535382522167950000, 967395858467670510000, 980702311596342470000, 987678196258612080000]]

/-- Rows from 2000 on. -/
def skRows20 : List (List Nat) := [
  [0, 0, 0, 0, 822467033424078230000, 901542677369687960000, 947032829497246320000, 972119770446909670000, 985551091297434570000, 992593819922830910000]]

/-- All rows, times `-10^21`. -/
def skRows : List (List Nat) := skRows0 ++ skRows1 ++ skRows2 ++ skRows3 ++ skRows4 ++ skRows5 ++ skRows6 ++ skRows7 ++ skRows8 ++ skRows9 ++ skRows10 ++
  skRows11 ++ skRows12 ++ skRows13 ++ skRows14 ++ skRows15 ++ skRows16 ++ skRows17 ++ skRows18 ++ skRows19 ++ skRows20

end Libgrpp
