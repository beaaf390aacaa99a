import Verif.Model.Window

/-!
# The tables of the acg windows, pmesh/_window_acg.h

Written from the C source by a script: each group of nine digits is `10^8 (1 + v)` for an entry `v` of the table, 256 entries in
each number, the first on the left; the last number is filled up with zeros `v = 0`, which are not part of the table.
-/

namespace Pmesh

/-- `_acg2_vtable`, pmesh/_window_acg.h:8-2056: 8192 entries. -/
def acg2Rows : List ℕ := [
  177556800_177556799_177556795_177556788_177556778_177556766_177556751_177556734_177556713_177556690_177556665_177556636_177556605_177556571_177556535_177556495_177556454_177556409_177556362_177556311_177556259_177556203_177556145_177556084_177556020_177555954_177555885_177555813_177555739_177555662_177555582_177555499_177555414_177555326_177555236_177555142_177555046_177554947_177554846_177554742_177554635_177554525_177554413_177554298_177554180_177554060_177553936_177553811_177553682_177553551_177553417_177553280_177553141_177552999_177552854_177552706_177552556_177552403_177552248_177552089_177551928_177551765_177551598_177551429_177551257_177551082_177550905_177550725_177550543_177550357_177550169_177549978_177549785_177549589_177549390_177549188_177548984_177548777_177548567_177548354_177548139_177547921_177547701_177547477_177547251_177547023_177546791_177546557_177546320_177546081_177545839_177545594_177545346_177545096_177544843_177544587_177544329_177544067_177543804_177543537_177543268_177542996_177542721_177542444_177542163_177541881_177541595_177541307_177541016_177540722_177540426_177540127_177539825_177539521_177539214_177538904_177538591_177538276_177537958_177537637_177537314_177536988_177536659_177536327_177535993_177535656_177535316_177534974_177534629_177534281_177533931_177533578_177533222_177532863_177532502_177532138_177531771_177531402_177531030_177530655_177530277_177529897_177529514_177529128_177528740_177528349_177527955_177527559_177527160_177526758_177526353_177525946_177525536_177525123_177524708_177524290_177523869_177523445_177523019_177522590_177522159_177521724_177521287_177520847_177520405_177519960_177519512_177519061_177518608_177518152_177517693_177517232_177516768_177516301_177515832_177515359_177514884_177514407_177513926_177513443_177512958_177512469_177511978_177511484_177510988_177510488_177509986_177509482_177508974_177508464_177507951_177507436_177506918_177506397_177505873_177505347_177504818_177504286_177503752_177503214_177502675_177502132_177501587_177501039_177500488_177499935_177499379_177498820_177498258_177497694_177497127_177496558_177495985_177495410_177494833_177494252_177493669_177493083_177492495_177491903_177491310_177490713_177490114_177489511_177488907_177488299_177487689_177487076_177486461_177485842_177485221_177484598_177483971_177483342_177482710_177482076_177481439_177480799_177480156_177479511_177478863_177478212_177477558_177476902_177476243_177475582_177474918_177474251_177473581_177472909_177472234_177471556_177470875_177470192_177469506_177468818,
  177468126_177467432_177466736_177466036_177465334_177464629_177463922_177463211_177462498_177461783_177461064_177460343_177459620_177458893_177458164_177457432_177456698_177455960_177455220_177454478_177453732_177452984_177452233_177451480_177450724_177449965_177449203_177448439_177447672_177446902_177446130_177445355_177444577_177443796_177443013_177442227_177441439_177440647_177439853_177439056_177438257_177437455_177436650_177435842_177435032_177434219_177433404_177432585_177431764_177430940_177430114_177429285_177428453_177427618_177426781_177425941_177425098_177424253_177423405_177422554_177421700_177420844_177419985_177419124_177418259_177417392_177416523_177415650_177414775_177413897_177413017_177412133_177411247_177410359_177409467_177408573_177407677_177406777_177405875_177404970_177404063_177403152_177402239_177401324_177400405_177399484_177398561_177397634_177396705_177395773_177394838_177393901_177392961_177392019_177391073_177390125_177389174_177388221_177387265_177386306_177385344_177384380_177383413_177382443_177381471_177380496_177379518_177378537_177377554_177376568_177375580_177374588_177373594_177372597_177371598_177370596_177369591_177368584_177367573_177366560_177365545_177364526_177363505_177362482_177361455_177360426_177359394_177358360_177357323_177356283_177355240_177354195_177353147_177352096_177351042_177349986_177348927_177347866_177346802_177345735_177344665_177343593_177342518_177341440_177340360_177339276_177338191_177337102_177336011_177334917_177333820_177332721_177331619_177330514_177329407_177328296_177327184_177326068_177324950_177323829_177322705_177321579_177320450_177319318_177318184_177317046_177315907_177314764_177313619_177312471_177311320_177310167_177309011_177307852_177306691_177305526_177304360_177303190_177302018_177300843_177299665_177298485_177297302_177296116_177294928_177293737_177292543_177291346_177290147_177288945_177287740_177286533_177285323_177284110_177282895_177281677_177280456_177279232_177278006_177276777_177275546_177274311_177273074_177271835_177270592_177269347_177268099_177266849_177265596_177264340_177263081_177261820_177260556_177259289_177258020_177256748_177255473_177254195_177252915_177251632_177250347_177249058_177247767_177246474_177245177_177243878_177242576_177241272_177239965_177238655_177237342_177236027_177234709_177233389_177232065_177230739_177229410_177228079_177226745_177225408_177224068_177222726_177221381_177220034_177218683_177217330_177215975_177214616_177213255_177211891_177210525_177209156_177207784_177206409_177205032_177203652,
  177202269_177200884_177199496_177198105_177196711_177195315_177193916_177192515_177191111_177189704_177188294_177186882_177185467_177184049_177182628_177181205_177179779_177178351_177176920_177175486_177174049_177172610_177171168_177169723_177168276_177166826_177165373_177163917_177162459_177160998_177159535_177158069_177156600_177155128_177153654_177152177_177150697_177149214_177147729_177146242_177144751_177143258_177141762_177140263_177138762_177137258_177135751_177134242_177132730_177131215_177129698_177128177_177126655_177125129_177123601_177122070_177120536_177119000_177117461_177115919_177114375_177112828_177111278_177109725_177108170_177106612_177105052_177103489_177101923_177100354_177098783_177097209_177095632_177094052_177092470_177090886_177089298_177087708_177086115_177084519_177082921_177081320_177079716_177078110_177076501_177074889_177073275_177071658_177070038_177068415_177066790_177065162_177063532_177061898_177060262_177058624_177056982_177055338_177053692_177052042_177050390_177048735_177047078_177045418_177043755_177042089_177040421_177038750_177037076_177035400_177033721_177032039_177030354_177028667_177026978_177025285_177023590_177021892_177020191_177018488_177016782_177015073_177013362_177011648_177009931_177008212_177006490_177004765_177003038_177001307_176999574_176997839_176996101_176994360_176992616_176990870_176989121_176987369_176985615_176983857_176982098_176980335_176978570_176976802_176975032_176973258_176971482_176969704_176967923_176966139_176964352_176962563_176960770_176958976_176957178_176955378_176953575_176951770_176949962_176948151_176946337_176944521_176942702_176940880_176939056_176937229_176935399_176933567_176931732_176929894_176928053_176926210_176924364_176922516_176920665_176918811_176916954_176915095_176913233_176911368_176909501_176907631_176905758_176903883_176902005_176900124_176898240_176896354_176894465_176892574_176890679_176888783_176886883_176884981_176883076_176881168_176879258_176877345_176875429_176873510_176871589_176869665_176867739_176865810_176863878_176861943_176860006_176858066_176856124_176854178_176852230_176850280_176848326_176846370_176844412_176842450_176840486_176838519_176836550_176834578_176832603_176830625_176828645_176826662_176824677_176822688_176820697_176818704_176816707_176814708_176812707_176810702_176808695_176806685_176804673_176802658_176800640_176798620_176796596_176794570_176792542_176790511_176788477_176786440_176784401_176782359_176780314_176778267_176776217_176774164_176772109_176770051_176767990_176765926_176763860_176761791,
  176759720_176757646_176755569_176753489_176751407_176749322_176747234_176745144_176743051_176740956_176738857_176736756_176734652_176732546_176730437_176728325_176726211_176724094_176721974_176719851_176717726_176715598_176713468_176711335_176709199_176707060_176704919_176702775_176700628_176698479_176696327_176694172_176692015_176689855_176687692_176685527_176683358_176681188_176679014_176676838_176674659_176672478_176670294_176668107_176665917_176663725_176661530_176659332_176657132_176654929_176652724_176650515_176648304_176646091_176643874_176641655_176639433_176637209_176634982_176632752_176630520_176628285_176626047_176623806_176621563_176619317_176617069_176614818_176612564_176610307_176608048_176605786_176603521_176601254_176598984_176596711_176594436_176592158_176589877_176587594_176585308_176583019_176580728_176578434_176576137_176573838_176571536_176569231_176566923_176564613_176562300_176559985_176557667_176555346_176553022_176550696_176548367_176546036_176543701_176541364_176539025_176536682_176534337_176531990_176529640_176527287_176524931_176522572_176520211_176517848_176515481_176513112_176510741_176508366_176505989_176503609_176501227_176498842_176496454_176494063_176491670_176489274_176486876_176484475_176482071_176479664_176477255_176474843_176472429_176470011_176467592_176465169_176462744_176460316_176457885_176455452_176453016_176450577_176448136_176445692_176443245_176440796_176438344_176435889_176433432_176430972_176428509_176426044_176423576_176421105_176418631_176416155_176413677_176411195_176408711_176406224_176403735_176401243_176398748_176396250_176393750_176391247_176388742_176386234_176383723_176381209_176378693_176376174_176373653_176371128_176368601_176366072_176363540_176361005_176358467_176355927_176353384_176350838_176348290_176345739_176343186_176340629_176338070_176335509_176332944_176330377_176327808_176325235_176322660_176320083_176317502_176314919_176312334_176309745_176307154_176304561_176301964_176299365_176296763_176294159_176291552_176288942_176286330_176283715_176281097_176278477_176275854_176273228_176270599_176267968_176265335_176262698_176260059_176257417_176254773_176252126_176249476_176246824_176244168_176241511_176238850_176236187_176233521_176230853_176228182_176225508_176222831_176220152_176217470_176214786_176212099_176209409_176206716_176204021_176201324_176198623_176195920_176193214_176190506_176187794_176185081_176182364_176179645_176176923_176174199_176171471_176168742_176166009_176163274_176160536_176157796_176155052_176152307_176149558_176146807_176144053,
  176141297_176138537_176135776_176133011_176130244_176127474_176124702_176121926_176119148_176116368_176113585_176110799_176108010_176105219_176102425_176099629_176096830_176094028_176091224_176088416_176085607_176082794_176079979_176077161_176074341_176071517_176068692_176065863_176063032_176060198_176057362_176054523_176051681_176048836_176045989_176043139_176040287_176037432_176034574_176031714_176028851_176025985_176023116_176020245_176017371_176014495_176011616_176008734_176005850_176002963_176000073_175997181_175994286_175991388_175988487_175985584_175982679_175979770_175976859_175973946_175971029_175968110_175965188_175962264_175959337_175956407_175953475_175950540_175947602_175944662_175941719_175938774_175935825_175932874_175929921_175926964_175924005_175921044_175918080_175915113_175912143_175909171_175906196_175903218_175900238_175897255_175894270_175891282_175888291_175885297_175882301_175879302_175876301_175873296_175870290_175867280_175864268_175861253_175858236_175855216_175852193_175849167_175846139_175843109_175840075_175837039_175834000_175830959_175827915_175824868_175821819_175818767_175815712_175812655_175809595_175806532_175803467_175800399_175797329_175794255_175791179_175788101_175785020_175781936_175778849_175775760_175772668_175769574_175766476_175763377_175760274_175757169_175754061_175750951_175747838_175744722_175741603_175738482_175735359_175732232_175729103_175725971_175722837_175719700_175716560_175713418_175710273_175707126_175703975_175700822_175697667_175694508_175691348_175688184_175685018_175681849_175678677_175675503_175672327_175669147_175665965_175662780_175659593_175656403_175653210_175650014_175646816_175643616_175640412_175637206_175633998_175630786_175627573_175624356_175621137_175617915_175614690_175611463_175608233_175605001_175601765_175598528_175595287_175592044_175588798_175585550_175582299_175579045_175575789_175572530_175569268_175566004_175562737_175559467_175556195_175552920_175549642_175546362_175543079_175539793_175536505_175533214_175529921_175526625_175523326_175520025_175516721_175513414_175510104_175506792_175503478_175500160_175496841_175493518_175490193_175486865_175483534_175480201_175476865_175473527_175470185_175466842_175463495_175460146_175456794_175453440_175450083_175446723_175443361_175439996_175436628_175433258_175429885_175426509_175423131_175419750_175416367_175412981_175409592_175406201_175402806_175399410_175396010_175392608_175389204_175385796_175382386_175378974_175375558_175372141_175368720_175365297_175361871_175358443_175355011_175351578,
  175348141_175344702_175341260_175337816_175334369_175330919_175327467_175324012_175320555_175317095_175313632_175310166_175306698_175303227_175299754_175296278_175292799_175289318_175285834_175282347_175278858_175275366_175271871_175268374_175264874_175261372_175257867_175254359_175250848_175247335_175243820_175240301_175236780_175233257_175229731_175226202_175222670_175219136_175215599_175212060_175208517_175204973_175201425_175197875_175194323_175190767_175187209_175183649_175180086_175176520_175172951_175169380_175165806_175162230_175158651_175155069_175151485_175147898_175144308_175140716_175137121_175133523_175129923_175126321_175122715_175119107_175115496_175111883_175108267_175104648_175101027_175097403_175093777_175090147_175086516_175082881_175079244_175075604_175071962_175068317_175064669_175061019_175057366_175053710_175050052_175046391_175042728_175039062_175035393_175031722_175028048_175024371_175020692_175017010_175013325_175009638_175005949_175002256_174998561_174994863_174991163_174987460_174983754_174980046_174976335_174972622_174968906_174965187_174961465_174957741_174954015_174950285_174946553_174942819_174939082_174935342_174931599_174927854_174924106_174920356_174916603_174912847_174909089_174905328_174901565_174897798_174894030_174890258_174886484_174882707_174878928_174875146_174871362_174867574_174863784_174859992_174856197_174852399_174848599_174844796_174840990_174837182_174833371_174829557_174825741_174821922_174818101_174814277_174810450_174806621_174802789_174798955_174795117_174791278_174787435_174783590_174779742_174775892_174772039_174768184_174764325_174760464_174756601_174752735_174748866_174744995_174741121_174737244_174733365_174729483_174725599_174721712_174717822_174713929_174710034_174706137_174702237_174698334_174694428_174690520_174686609_174682696_174678780_174674861_174670940_174667016_174663090_174659161_174655229_174651294_174647357_174643418_174639476_174635531_174631583_174627633_174623680_174619725_174615767_174611806_174607843_174603877_174599909_174595938_174591964_174587988_174584009_174580027_174576043_174572056_174568066_174564074_174560080_174556082_174552082_174548080_174544075_174540067_174536056_174532043_174528028_174524009_174519988_174515965_174511939_174507910_174503878_174499844_174495808_174491768_174487727_174483682_174479635_174475585_174471533_174467478_174463420_174459360_174455297_174451232_174447164_174443093_174439019_174434944_174430865_174426784_174422700_174418614_174414525_174410433_174406339_174402242_174398142_174394040_174389935_174385828,
  174381718_174377605_174373490_174369372_174365252_174361129_174357003_174352875_174348744_174344610_174340474_174336336_174332194_174328050_174323904_174319754_174315602_174311448_174307291_174303131_174298969_174294804_174290637_174286466_174282294_174278118_174273940_174269760_174265576_174261391_174257202_174253011_174248818_174244621_174240422_174236221_174232017_174227810_174223601_174219389_174215174_174210957_174206737_174202515_174198290_174194062_174189832_174185599_174181364_174177125_174172885_174168641_174164396_174160147_174155896_174151642_174147386_174143127_174138865_174134601_174130334_174126065_174121793_174117518_174113241_174108961_174104679_174100394_174096106_174091816_174087523_174083227_174078929_174074628_174070325_174066019_174061711_174057400_174053086_174048769_174044450_174040129_174035805_174031478_174027148_174022816_174018482_174014145_174009805_174005462_174001117_173996770_173992419_173988067_173983711_173979353_173974992_173970629_173966263_173961895_173957524_173953150_173948774_173944395_173940013_173935629_173931242_173926853_173922461_173918066_173913669_173909270_173904867_173900462_173896055_173891645_173887232_173882816_173878398_173873978_173869555_173865129_173860701_173856270_173851836_173847400_173842961_173838520_173834076_173829629_173825180_173820728_173816274_173811817_173807357_173802895_173798430_173793963_173789493_173785020_173780545_173776067_173771587_173767104_173762618_173758130_173753639_173749145_173744649_173740151_173735650_173731146_173726639_173722130_173717619_173713105_173708588_173704068_173699546_173695022_173690495_173685965_173681433_173676898_173672360_173667820_173663277_173658732_173654184_173649633_173645080_173640524_173635966_173631405_173626841_173622275_173617707_173613135_173608561_173603985_173599406_173594824_173590240_173585653_173581063_173576471_173571876_173567279_173562679_173558077_173553472_173548864_173544254_173539641_173535026_173530408_173525787_173521164_173516538_173511910_173507279_173502645_173498009_173493370_173488729_173484085_173479438_173474789_173470137_173465483_173460826_173456167_173451504_173446840_173442172_173437503_173432830_173428155_173423477_173418797_173414114_173409429_173404741_173400050_173395357_173390662_173385963_173381262_173376559_173371853_173367144_173362433_173357719_173353002_173348283_173343561_173338837_173334110_173329381_173324649_173319914_173315177_173310437_173305695_173300950_173296203_173291453_173286700_173281945_173277187_173272426_173267663_173262898_173258129_173253359_173248585,
  173243809_173239031_173234250_173229466_173224680_173219891_173215099_173210305_173205508_173200709_173195907_173191103_173186296_173181486_173176674_173171860_173167042_173162222_173157400_173152575_173147747_173142917_173138084_173133249_173128411_173123570_173118727_173113881_173109033_173104182_173099329_173094473_173089614_173084753_173079889_173075023_173070154_173065282_173060408_173055531_173050652_173045770_173040886_173035999_173031109_173026217_173021322_173016425_173011525_173006623_173001718_172996810_172991900_172986987_172982072_172977154_172972233_172967310_172962384_172957456_172952525_172947592_172942656_172937717_172932776_172927833_172922886_172917937_172912986_172908032_172903075_172898116_172893154_172888190_172883223_172878254_172873282_172868307_172863330_172858350_172853368_172848383_172843395_172838405_172833413_172828417_172823420_172818419_172813416_172808411_172803403_172798392_172793379_172788363_172783345_172778324_172773300_172768274_172763246_172758214_172753181_172748144_172743105_172738064_172733020_172727973_172722924_172717872_172712818_172707761_172702701_172697639_172692575_172687507_172682438_172677365_172672290_172667213_172662133_172657050_172651965_172646877_172641787_172636694_172631598_172626500_172621400_172616297_172611191_172606083_172600972_172595858_172590742_172585624_172580503_172575379_172570253_172565124_172559992_172554858_172549722_172544583_172539441_172534297_172529150_172524001_172518849_172513694_172508537_172503377_172498215_172493051_172487883_172482713_172477541_172472366_172467188_172462008_172456826_172451640_172446452_172441262_172436069_172430874_172425676_172420475_172415272_172410066_172404858_172399647_172394433_172389217_172383999_172378778_172373554_172368328_172363099_172357868_172352634_172347397_172342158_172336916_172331672_172326426_172321176_172315924_172310670_172305413_172300154_172294891_172289627_172284360_172279090_172273818_172268543_172263265_172257985_172252703_172247418_172242130_172236840_172231547_172226252_172220954_172215653_172210350_172205045_172199737_172194426_172189113_172183797_172178479_172173158_172167834_172162508_172157180_172151849_172146515_172141179_172135840_172130499_172125155_172119808_172114459_172109108_172103754_172098397_172093038_172087676_172082312_172076945_172071576_172066204_172060829_172055452_172050073_172044690_172039306_172033918_172028529_172023136_172017741_172012344_172006944_172001541_171996136_171990728_171985318_171979906_171974490_171969072_171963652_171958229_171952803_171947375_171941945,
  171936512_171931076_171925638_171920197_171914753_171909308_171903859_171898408_171892955_171887498_171882040_171876579_171871115_171865649_171860180_171854708_171849235_171843758_171838279_171832797_171827313_171821827_171816338_171810846_171805352_171799855_171794355_171788853_171783349_171777842_171772332_171766820_171761306_171755789_171750269_171744747_171739222_171733694_171728164_171722632_171717097_171711560_171706020_171700477_171694932_171689384_171683834_171678281_171672726_171667168_171661608_171656045_171650479_171644911_171639341_171633767_171628192_171622614_171617033_171611450_171605864_171600276_171594685_171589091_171583495_171577897_171572296_171566692_171561086_171555478_171549866_171544253_171538636_171533018_171527396_171521772_171516146_171510517_171504886_171499252_171493615_171487976_171482334_171476690_171471044_171465394_171459743_171454088_171448431_171442772_171437110_171431446_171425779_171420109_171414437_171408763_171403086_171397406_171391724_171386039_171380352_171374662_171368970_171363275_171357578_171351878_171346175_171340470_171334763_171329053_171323340_171317625_171311908_171306188_171300465_171294740_171289012_171283282_171277549_171271814_171266076_171260335_171254592_171248847_171243099_171237348_171231595_171225840_171220082_171214321_171208558_171202792_171197024_171191253_171185480_171179704_171173926_171168145_171162362_171156576_171150788_171144997_171139203_171133407_171127609_171121808_171116004_171110198_171104389_171098578_171092765_171086948_171081130_171075308_171069485_171063658_171057830_171051998_171046164_171040328_171034489_171028648_171022804_171016957_171011108_171005257_170999403_170993546_170987687_170981825_170975961_170970095_170964225_170958354_170952479_170946603_170940723_170934842_170928957_170923071_170917181_170911289_170905395_170899498_170893599_170887697_170881792_170875885_170869976_170864064_170858149_170852232_170846313_170840391_170834466_170828539_170822609_170816677_170810742_170804805_170798865_170792923_170786979_170781031_170775082_170769129_170763174_170757217_170751257_170745295_170739330_170733363_170727393_170721420_170715446_170709468_170703488_170697506_170691521_170685533_170679543_170673551_170667556_170661558_170655558_170649556_170643550_170637543_170631533_170625520_170619505_170613487_170607467_170601445_170595419_170589392_170583362_170577329_170571294_170565256_170559216_170553173_170547128_170541080_170535030_170528977_170522922_170516864_170510804_170504741_170498675_170492608_170486537_170480464_170474389_170468311,
  170462231_170456148_170450063_170443975_170437884_170431791_170425696_170419598_170413498_170407395_170401289_170395181_170389071_170382958_170376843_170370725_170364604_170358481_170352356_170346228_170340097_170333964_170327829_170321691_170315550_170309407_170303262_170297114_170290963_170284810_170278655_170272497_170266336_170260173_170254008_170247840_170241669_170235496_170229321_170223143_170216962_170210779_170204594_170198406_170192215_170186022_170179827_170173629_170167428_170161225_170155020_170148812_170142601_170136388_170130173_170123955_170117734_170111511_170105286_170099058_170092827_170086594_170080359_170074121_170067881_170061638_170055392_170049144_170042894_170036641_170030385_170024127_170017867_170011604_170005339_169999071_169992800_169986527_169980252_169973974_169967694_169961411_169955126_169948838_169942547_169936254_169929959_169923661_169917361_169911058_169904753_169898445_169892135_169885822_169879507_169873189_169866869_169860546_169854221_169847893_169841563_169835230_169828895_169822557_169816217_169809874_169803529_169797182_169790832_169784479_169778124_169771766_169765406_169759044_169752679_169746311_169739941_169733569_169727194_169720816_169714436_169708054_169701669_169695281_169688891_169682499_169676104_169669707_169663307_169656905_169650500_169644092_169637683_169631270_169624856_169618438_169612019_169605596_169599172_169592745_169586315_169579883_169573448_169567011_169560572_169554129_169547685_169541238_169534788_169528336_169521882_169515425_169508966_169502504_169496039_169489572_169483103_169476631_169470157_169463680_169457201_169450719_169444235_169437748_169431259_169424767_169418273_169411777_169405277_169398776_169392272_169385765_169379256_169372745_169366231_169359714_169353196_169346674_169340150_169333624_169327095_169320564_169314030_169307494_169300955_169294414_169287870_169281324_169274776_169268225_169261671_169255115_169248556_169241995_169235432_169228866_169222298_169215727_169209154_169202578_169195999_169189419_169182835_169176250_169169662_169163071_169156478_169149882_169143284_169136684_169130081_169123475_169116867_169110257_169103644_169097029_169090411_169083791_169077168_169070543_169063915_169057285_169050652_169044017_169037380_169030740_169024097_169017452_169010805_169004155_168997503_168990848_168984191_168977531_168970869_168964204_168957537_168950867_168944195_168937521_168930844_168924164_168917482_168910798_168904111_168897422_168890730_168884036_168877339_168870640_168863938_168857234_168850527_168843818_168837107_168830393,
  168823677_168816958_168810236_168803513_168796786_168790058_168783327_168776593_168769857_168763118_168756377_168749634_168742888_168736140_168729389_168722635_168715880_168709122_168702361_168695598_168688832_168682064_168675294_168668521_168661745_168654967_168648187_168641404_168634619_168627831_168621041_168614249_168607453_168600656_168593856_168587054_168580249_168573441_168566632_168559819_168553005_168546187_168539368_168532546_168525721_168518894_168512065_168505233_168498399_168491562_168484723_168477881_168471037_168464190_168457341_168450490_168443636_168436780_168429921_168423059_168416196_168409330_168402461_168395590_168388716_168381840_168374962_168368081_168361198_168354312_168347424_168340533_168333640_168326744_168319846_168312946_168306043_168299138_168292230_168285320_168278407_168271492_168264574_168257654_168250732_168243807_168236880_168229950_168223017_168216083_168209146_168202206_168195264_168188320_168181373_168174423_168167471_168160517_168153561_168146601_168139640_168132676_168125709_168118741_168111769_168104795_168097819_168090841_168083859_168076876_168069890_168062902_168055911_168048917_168041922_168034923_168027923_168020920_168013914_168006906_167999896_167992883_167985868_167978850_167971830_167964808_167957783_167950755_167943725_167936693_167929658_167922621_167915581_167908539_167901495_167894448_167887399_167880347_167873293_167866236_167859177_167852115_167845051_167837985_167830916_167823845_167816771_167809695_167802617_167795536_167788452_167781366_167774278_167767187_167760094_167752999_167745900_167738800_167731697_167724592_167717484_167710374_167703261_167696146_167689029_167681909_167674787_167667662_167660535_167653405_167646273_167639139_167632002_167624862_167617721_167610577_167603430_167596281_167589129_167581976_167574819_167567661_167560499_167553336_167546170_167539001_167531831_167524657_167517482_167510303_167503123_167495940_167488754_167481567_167474376_167467184_167459989_167452791_167445591_167438389_167431184_167423977_167416767_167409555_167402341_167395124_167387904_167380683_167373459_167366232_167359003_167351772_167344538_167337301_167330063_167322822_167315578_167308332_167301084_167293833_167286580_167279324_167272066_167264806_167257543_167250278_167243010_167235740_167228467_167221192_167213915_167206635_167199353_167192068_167184781_167177492_167170200_167162906_167155609_167148310_167141008_167133705_167126398_167119089_167111778_167104465_167097149_167089830_167082509_167075186_167067861_167060532_167053202_167045869_167038534_167031196,
  167023856_167016513_167009169_167001821_166994471_166987119_166979765_166972408_166965048_166957686_166950322_166942956_166935587_166928215_166920841_166913465_166906086_166898705_166891322_166883936_166876548_166869157_166861764_166854368_166846970_166839570_166832167_166824762_166817355_166809945_166802532_166795118_166787700_166780281_166772859_166765435_166758008_166750579_166743147_166735713_166728277_166720838_166713397_166705953_166698507_166691059_166683608_166676155_166668699_166661241_166653781_166646318_166638853_166631385_166623915_166616443_166608968_166601491_166594011_166586529_166579045_166571558_166564069_166556577_166549083_166541587_166534088_166526587_166519083_166511577_166504069_166496558_166489045_166481529_166474011_166466491_166458968_166451443_166443916_166436386_166428853_166421319_166413781_166406242_166398700_166391156_166383609_166376060_166368509_166360955_166353398_166345840_166338279_166330715_166323149_166315581_166308011_166300438_166292862_166285284_166277704_166270122_166262537_166254949_166247360_166239768_166232173_166224576_166216977_166209375_166201771_166194165_166186556_166178945_166171331_166163715_166156097_166148476_166140853_166133227_166125599_166117969_166110336_166102701_166095064_166087424_166079782_166072137_166064490_166056841_166049189_166041535_166033878_166026219_166018558_166010894_166003228_165995560_165987889_165980216_165972540_165964862_165957182_165949499_165941814_165934126_165926436_165918744_165911050_165903353_165895653_165887951_165880247_165872541_165864832_165857120_165849407_165841691_165833972_165826251_165818528_165810803_165803075_165795344_165787612_165779877_165772139_165764399_165756657_165748913_165741166_165733416_165725665_165717911_165710154_165702395_165694634_165686871_165679105_165671336_165663566_165655793_165648017_165640239_165632459_165624677_165616892_165609104_165601315_165593523_165585728_165577931_165570132_165562331_165554527_165546721_165538912_165531101_165523288_165515472_165507654_165499833_165492010_165484185_165476358_165468528_165460695_165452861_165445024_165437184_165429343_165421498_165413652_165405803_165397952_165390098_165382242_165374384_165366523_165358660_165350795_165342927_165335057_165327184_165319309_165311432_165303552_165295670_165287786_165279899_165272010_165264119_165256225_165248329_165240430_165232530_165224626_165216721_165208813_165200902_165192990_165185075_165177157_165169238_165161316_165153391_165145464_165137535_165129603_165121670_165113733_165105795_165097854_165089910_165081965_165074017,
  165066066_165058114_165050158_165042201_165034241_165026279_165018314_165010348_165002378_164994407_164986433_164978456_164970478_164962497_164954513_164946528_164938540_164930549_164922556_164914561_164906564_164898564_164890562_164882557_164874550_164866541_164858530_164850516_164842499_164834481_164826460_164818436_164810411_164802383_164794352_164786319_164778284_164770247_164762207_164754165_164746121_164738074_164730025_164721973_164713919_164705863_164697804_164689744_164681680_164673615_164665547_164657477_164649404_164641329_164633252_164625172_164617090_164609006_164600919_164592830_164584739_164576645_164568549_164560450_164552350_164544247_164536141_164528033_164519923_164511811_164503696_164495579_164487459_164479338_164471213_164463087_164454958_164446827_164438693_164430558_164422419_164414279_164406136_164397991_164389843_164381693_164373541_164365387_164357230_164349071_164340909_164332745_164324579_164316410_164308239_164300066_164291891_164283713_164275532_164267350_164259165_164250978_164242788_164234596_164226402_164218205_164210007_164201805_164193602_164185396_164177188_164168977_164160764_164152549_164144331_164136111_164127889_164119665_164111438_164103209_164094977_164086743_164078507_164070269_164062028_164053784_164045539_164037291_164029041_164020788_164012534_164004277_163996017_163987755_163979491_163971225_163962956_163954685_163946411_163938136_163929858_163921577_163913294_163905009_163896722_163888432_163880140_163871846_163863549_163855250_163846949_163838645_163830339_163822031_163813721_163805408_163797092_163788775_163780455_163772133_163763808_163755481_163747152_163738821_163730487_163722151_163713812_163705472_163697129_163688783_163680436_163672086_163663733_163655379_163647022_163638662_163630301_163621937_163613570_163605202_163596831_163588458_163580082_163571705_163563324_163554942_163546557_163538170_163529781_163521389_163512995_163504599_163496200_163487799_163479396_163470990_163462582_163454172_163445760_163437345_163428928_163420508_163412087_163403662_163395236_163386807_163378376_163369943_163361507_163353070_163344629_163336187_163327742_163319295_163310845_163302394_163293940_163285483_163277024_163268563_163260100_163251635_163243167_163234696_163226224_163217749_163209272_163200793_163192311_163183827_163175340_163166852_163158361_163149868_163141372_163132874_163124374_163115872_163107367_163098860_163090350_163081839_163073325_163064808_163056290_163047769_163039246_163030720_163022193_163013662_163005130_162996595_162988058_162979519_162970978_162962434,
  162953888_162945339_162936788_162928235_162919680_162911122_162902562_162894000_162885436_162876869_162868300_162859728_162851155_162842579_162834000_162825420_162816837_162808252_162799664_162791074_162782482_162773888_162765291_162756692_162748091_162739488_162730882_162722274_162713663_162705051_162696436_162687818_162679199_162670577_162661953_162653326_162644698_162636067_162627433_162618798_162610160_162601520_162592877_162584233_162575586_162566936_162558285_162549631_162540975_162532316_162523656_162514993_162506327_162497660_162488990_162480318_162471643_162462966_162454287_162445606_162436923_162428237_162419549_162410858_162402165_162393470_162384773_162376074_162367372_162358668_162349961_162341253_162332542_162323828_162315113_162306395_162297675_162288953_162280228_162271501_162262772_162254041_162245307_162236571_162227833_162219092_162210349_162201604_162192857_162184107_162175355_162166601_162157844_162149085_162140324_162131561_162122795_162114028_162105257_162096485_162087710_162078933_162070154_162061372_162052589_162043803_162035014_162026224_162017431_162008636_161999838_161991039_161982237_161973432_161964626_161955817_161947006_161938193_161929377_161920559_161911739_161902917_161894092_161885265_161876436_161867605_161858771_161849935_161841097_161832256_161823413_161814568_161805721_161796871_161788019_161779165_161770309_161761450_161752589_161743726_161734861_161725993_161717123_161708251_161699376_161690500_161681621_161672739_161663856_161654970_161646082_161637192_161628299_161619404_161610507_161601608_161592706_161583802_161574896_161565988_161557077_161548164_161539249_161530331_161521412_161512490_161503566_161494639_161485710_161476779_161467846_161458911_161449973_161441033_161432091_161423146_161414199_161405250_161396299_161387346_161378390_161369432_161360471_161351509_161342544_161333577_161324608_161315636_161306662_161297686_161288708_161279727_161270745_161261760_161252772_161243783_161234791_161225797_161216800_161207802_161198801_161189798_161180793_161171785_161162775_161153763_161144749_161135733_161126714_161117693_161108669_161099644_161090616_161081586_161072554_161063519_161054483_161045444_161036402_161027359_161018313_161009265_161000215_160991162_160982108_160973051_160963992_160954930_160945867_160936801_160927732_160918662_160909589_160900515_160891437_160882358_160873277_160864193_160855107_160846018_160836928_160827835_160818740_160809643_160800543_160791441_160782337_160773231_160764123_160755012_160745899_160736784_160727667_160718547_160709425_160700301,
  160691175_160682046_160672915_160663782_160654647_160645509_160636370_160627228_160618084_160608937_160599788_160590638_160581484_160572329_160563171_160554012_160544850_160535685_160526519_160517350_160508179_160499006_160489830_160480653_160471473_160462291_160453106_160443920_160434731_160425540_160416347_160407151_160397953_160388754_160379551_160370347_160361140_160351932_160342720_160333507_160324292_160315074_160305854_160296632_160287407_160278181_160268952_160259721_160250487_160241252_160232014_160222774_160213532_160204288_160195041_160185792_160176541_160167288_160158032_160148775_160139515_160130252_160120988_160111721_160102453_160093182_160083908_160074633_160065355_160056075_160046793_160037509_160028222_160018933_160009642_160000349_159991054_159981756_159972456_159963154_159953850_159944543_159935235_159925924_159916611_159907295_159897978_159888658_159879336_159870012_159860685_159851357_159842026_159832693_159823357_159814020_159804680_159795338_159785994_159776648_159767300_159757949_159748596_159739241_159729883_159720524_159711162_159701798_159692432_159683064_159673693_159664320_159654945_159645568_159636188_159626807_159617423_159608037_159598649_159589258_159579866_159570471_159561074_159551675_159542273_159532869_159523464_159514056_159504645_159495233_159485818_159476401_159466982_159457561_159448137_159438712_159429284_159419854_159410422_159400987_159391550_159382112_159372670_159363227_159353782_159344334_159334884_159325432_159315978_159306522_159297063_159287602_159278139_159268674_159259206_159249737_159240265_159230791_159221315_159211836_159202356_159192873_159183388_159173901_159164412_159154920_159145426_159135930_159126432_159116932_159107429_159097925_159088418_159078909_159069397_159059884_159050368_159040851_159031331_159021808_159012284_159002757_158993229_158983698_158974164_158964629_158955092_158945552_158936010_158926466_158916920_158907371_158897821_158888268_158878713_158869156_158859596_158850035_158840471_158830905_158821337_158811767_158802194_158792620_158783043_158773464_158763882_158754299_158744714_158735126_158725536_158715944_158706350_158696753_158687154_158677554_158667951_158658345_158648738_158639129_158629517_158619903_158610287_158600669_158591048_158581426_158571801_158562174_158552545_158542914_158533280_158523645_158514007_158504367_158494725_158485080_158475434_158465785_158456134_158446481_158436826_158427169_158417509_158407847_158398183_158388517_158378849_158369179_158359506_158349831_158340155_158330475_158320794_158311111_158301425_158291737,
  158282048_158272355_158262661_158252965_158243266_158233565_158223863_158214157_158204450_158194741_158185029_158175315_158165600_158155881_158146161_158136439_158126714_158116988_158107259_158097528_158087794_158078059_158068321_158058582_158048840_158039096_158029350_158019601_158009851_158000098_157990343_157980586_157970827_157961066_157951302_157941537_157931769_157921999_157912227_157902453_157892676_157882898_157873117_157863334_157853549_157843762_157833973_157824181_157814387_157804592_157794794_157784993_157775191_157765387_157755580_157745771_157735961_157726147_157716332_157706515_157696695_157686874_157677050_157667224_157657396_157647566_157637733_157627899_157618062_157608223_157598382_157588539_157578694_157568846_157558997_157549145_157539291_157529435_157519577_157509717_157499854_157489989_157480123_157470254_157460383_157450509_157440634_157430757_157420877_157410995_157401111_157391225_157381337_157371447_157361554_157351660_157341763_157331864_157321963_157312060_157302154_157292247_157282337_157272425_157262511_157252595_157242677_157232757_157222834_157212910_157202983_157193054_157183123_157173190_157163255_157153317_157143378_157133436_157123492_157113546_157103598_157093648_157083696_157073741_157063784_157053826_157043865_157033902_157023937_157013969_157004000_156994028_156984055_156974079_156964101_156954121_156944138_156934154_156924168_156914179_156904188_156894195_156884200_156874203_156864204_156854203_156844199_156834193_156824186_156814176_156804164_156794149_156784133_156774115_156764094_156754072_156744047_156734020_156723991_156713960_156703926_156693891_156683853_156673814_156663772_156653728_156643682_156633634_156623584_156613531_156603477_156593420_156583361_156573300_156563237_156553172_156543105_156533036_156522964_156512891_156502815_156492737_156482657_156472575_156462491_156452405_156442316_156432226_156422133_156412038_156401941_156391842_156381741_156371638_156361533_156351425_156341316_156331204_156321090_156310974_156300856_156290736_156280614_156270489_156260363_156250234_156240104_156229971_156219836_156209699_156199560_156189418_156179275_156169130_156158982_156148832_156138681_156128527_156118371_156108212_156098052_156087890_156077725_156067559_156057390_156047219_156037047_156026872_156016695_156006515_155996334_155986151_155975965_155965778_155955588_155945396_155935202_155925006_155914808_155904608_155894405_155884201_155873994_155863786_155853575_155843362_155833147_155822930_155812711_155802490_155792267_155782041_155771814_155761584_155751352_155741119,
  155730883_155720645_155710404_155700162_155689918_155679672_155669423_155659173_155648920_155638665_155628408_155618149_155607888_155597625_155587360_155577092_155566823_155556551_155546278_155536002_155525724_155515444_155505162_155494878_155484592_155474304_155464014_155453721_155443427_155433130_155422831_155412530_155402228_155391923_155381616_155371306_155360995_155350682_155340366_155330049_155319729_155309408_155299084_155288758_155278430_155268100_155257768_155247434_155237098_155226759_155216419_155206076_155195732_155185385_155175036_155164686_155154333_155143978_155133621_155123261_155112900_155102537_155092171_155081804_155071434_155061063_155050689_155040313_155029935_155019555_155009173_154998789_154988403_154978015_154967625_154957232_154946838_154936441_154926042_154915642_154905239_154894834_154884427_154874018_154863607_154853194_154842779_154832361_154821942_154811521_154801097_154790671_154780244_154769814_154759382_154748948_154738512_154728074_154717634_154707192_154696748_154686302_154675853_154665403_154654950_154644496_154634039_154623581_154613120_154602657_154592192_154581725_154571256_154560785_154550312_154539837_154529359_154518880_154508399_154497915_154487430_154476942_154466452_154455961_154445467_154434971_154424473_154413973_154403471_154392967_154382461_154371953_154361442_154350930_154340416_154329899_154319381_154308860_154298338_154287813_154277286_154266757_154256226_154245694_154235159_154224622_154214083_154203541_154192998_154182453_154171906_154161356_154150805_154140251_154129696_154119138_154108579_154098017_154087453_154076888_154066320_154055750_154045178_154034604_154024028_154013450_154002870_153992288_153981703_153971117_153960529_153949939_153939346_153928752_153918155_153907557_153896956_153886353_153875749_153865142_153854533_153843922_153833309_153822694_153812077_153801458_153790837_153780214_153769589_153758962_153748333_153737701_153727068_153716433_153705795_153695156_153684515_153673871_153663225_153652578_153641928_153631277_153620623_153609967_153599309_153588649_153577988_153567324_153556658_153545990_153535320_153524648_153513974_153503297_153492619_153481939_153471257_153460573_153449886_153439198_153428508_153417815_153407121_153396424_153385726_153375025_153364323_153353618_153342911_153332203_153321492_153310779_153300065_153289348_153278629_153267908_153257185_153246460_153235733_153225004_153214273_153203540_153192805_153182068_153171329_153160588_153149845_153139100_153128353_153117603_153106852_153096099_153085344_153074586_153063827_153053065,
  153042302_153031537_153020769_153010000_152999228_152988455_152977679_152966902_152956122_152945341_152934557_152923771_152912984_152902194_152891402_152880609_152869813_152859015_152848215_152837414_152826610_152815804_152804996_152794186_152783374_152772560_152761745_152750927_152740107_152729285_152718461_152707635_152696807_152685977_152675145_152664311_152653475_152642637_152631797_152620955_152610111_152599264_152588416_152577566_152566714_152555860_152545004_152534146_152523286_152512423_152501559_152490693_152479825_152468955_152458082_152447208_152436332_152425454_152414573_152403691_152392807_152381921_152371032_152360142_152349250_152338356_152327459_152316561_152305661_152294759_152283854_152272948_152262040_152251129_152240217_152229303_152218387_152207468_152196548_152185626_152174701_152163775_152152847_152141917_152130984_152120050_152109114_152098175_152087235_152076293_152065349_152054402_152043454_152032504_152021552_152010597_151999641_151988683_151977723_151966760_151955796_151944830_151933862_151922892_151911919_151900945_151889969_151878991_151868011_151857029_151846044_151835058_151824070_151813080_151802088_151791094_151780098_151769100_151758100_151747098_151736094_151725088_151714080_151703070_151692058_151681044_151670028_151659010_151647990_151636968_151625944_151614918_151603891_151592861_151581829_151570795_151559759_151548722_151537682_151526640_151515596_151504551_151493503_151482453_151471402_151460348_151449293_151438235_151427176_151416114_151405051_151393985_151382918_151371848_151360777_151349703_151338628_151327551_151316471_151305390_151294307_151283222_151272134_151261045_151249954_151238861_151227766_151216669_151205570_151194469_151183366_151172261_151161154_151150045_151138934_151127821_151116706_151105589_151094471_151083350_151072227_151061103_151049976_151038847_151027717_151016584_151005450_150994313_150983175_150972034_150960892_150949748_150938601_150927453_150916303_150905151_150893996_150882840_150871682_150860522_150849360_150838196_150827030_150815862_150804692_150793521_150782347_150771171_150759993_150748814_150737632_150726448_150715263_150704075_150692886_150681694_150670501_150659306_150648108_150636909_150625708_150614505_150603300_150592093_150580883_150569673_150558460_150547245_150536028_150524809_150513588_150502365_150491141_150479914_150468686_150457455_150446223_150434988_150423752_150412513_150401273_150390031_150378787_150367541_150356293_150345042_150333790_150322537_150311281_150300023_150288763_150277501_150266238_150254972_150243704_150232435,
  150221164_150209890_150198615_150187337_150176058_150164777_150153494_150142209_150130922_150119633_150108342_150097049_150085754_150074458_150063159_150051858_150040556_150029251_150017945_150006637_149995326_149984014_149972700_149961384_149950066_149938746_149927424_149916100_149904774_149893446_149882117_149870785_149859451_149848116_149836779_149825439_149814098_149802755_149791409_149780062_149768713_149757362_149746010_149734655_149723298_149711939_149700579_149689216_149677852_149666485_149655117_149643747_149632374_149621000_149609624_149598246_149586866_149575484_149564101_149552715_149541327_149529938_149518546_149507153_149495757_149484360_149472961_149461560_149450157_149438752_149427345_149415936_149404525_149393113_149381698_149370282_149358863_149347443_149336021_149324597_149313170_149301742_149290312_149278881_149267447_149256011_149244573_149233134_149221692_149210249_149198804_149187357_149175907_149164456_149153003_149141549_149130092_149118633_149107172_149095710_149084245_149072779_149061311_149049841_149038368_149026894_149015419_149003941_148992461_148980979_148969496_148958010_148946523_148935033_148923542_148912049_148900554_148889057_148877558_148866057_148854555_148843050_148831544_148820035_148808525_148797013_148785499_148773983_148762465_148750945_148739423_148727899_148716374_148704846_148693317_148681786_148670253_148658718_148647181_148635642_148624101_148612558_148601014_148589467_148577919_148566368_148554816_148543262_148531706_148520148_148508589_148497027_148485463_148473898_148462330_148450761_148439190_148427617_148416042_148404465_148392886_148381306_148369723_148358139_148346552_148334964_148323374_148311782_148300188_148288592_148276995_148265395_148253794_148242190_148230585_148218978_148207369_148195758_148184145_148172530_148160914_148149295_148137675_148126053_148114429_148102802_148091175_148079545_148067913_148056279_148044644_148033007_148021367_148009726_147998083_147986438_147974792_147963143_147951492_147939840_147928186_147916529_147904871_147893211_147881550_147869886_147858220_147846553_147834883_147823212_147811539_147799864_147788187_147776508_147764828_147753145_147741461_147729775_147718086_147706396_147694704_147683011_147671315_147659617_147647918_147636217_147624514_147612809_147601102_147589393_147577682_147565970_147554255_147542539_147530821_147519101_147507379_147495655_147483930_147472202_147460473_147448742_147437008_147425273_147413537_147401798_147390057_147378315_147366571_147354824_147343076_147331326_147319575_147307821_147296066_147284308,
  147272549_147260788_147249025_147237260_147225493_147213725_147201954_147190182_147178408_147166632_147154854_147143074_147131293_147119509_147107724_147095937_147084148_147072357_147060564_147048769_147036973_147025175_147013374_147001572_146989768_146977963_146966155_146954346_146942534_146930721_146918906_146907089_146895270_146883450_146871627_146859803_146847977_146836149_146824319_146812487_146800654_146788818_146776981_146765142_146753301_146741458_146729613_146717767_146705918_146694068_146682216_146670362_146658506_146646649_146634789_146622928_146611065_146599200_146587333_146575464_146563594_146551721_146539847_146527971_146516093_146504213_146492332_146480448_146468563_146456676_146444787_146432896_146421003_146409109_146397212_146385314_146373414_146361512_146349609_146337703_146325796_146313886_146301975_146290062_146278148_146266231_146254313_146242392_146230470_146218546_146206621_146194693_146182764_146170832_146158899_146146964_146135028_146123089_146111149_146099206_146087262_146075316_146063368_146051419_146039467_146027514_146015559_146003602_145991643_145979683_145967720_145955756_145943790_145931822_145919853_145907881_145895908_145883932_145871955_145859976_145847996_145836013_145824029_145812043_145800055_145788065_145776073_145764080_145752085_145740088_145728089_145716088_145704085_145692081_145680075_145668067_145656057_145644045_145632032_145620016_145607999_145595980_145583959_145571937_145559912_145547886_145535858_145523828_145511797_145499763_145487728_145475691_145463652_145451611_145439568_145427524_145415478_145403430_145391380_145379328_145367275_145355220_145343163_145331104_145319043_145306980_145294916_145282850_145270782_145258712_145246641_145234567_145222492_145210415_145198336_145186256_145174173_145162089_145150003_145137915_145125826_145113734_145101641_145089546_145077449_145065350_145053250_145041148_145029043_145016938_145004830_144992720_144980609_144968496_144956381_144944264_144932146_144920026_144907904_144895780_144883654_144871526_144859397_144847266_144835133_144822998_144810862_144798724_144786584_144774442_144762298_144750153_144738005_144725856_144713705_144701553_144689398_144677242_144665084_144652924_144640763_144628599_144616434_144604267_144592098_144579928_144567755_144555581_144543405_144531227_144519048_144506866_144494683_144482498_144470312_144458123_144445933_144433741_144421547_144409351_144397154_144384955_144372754_144360551_144348347_144336140_144323932_144311722_144299510_144287297_144275082_144262865_144250646_144238425_144226203_144213979,
  144201753_144189525_144177296_144165064_144152831_144140596_144128360_144116121_144103881_144091639_144079395_144067150_144054903_144042653_144030403_144018150_144005896_143993639_143981381_143969122_143956860_143944597_143932332_143920065_143907796_143895526_143883254_143870980_143858704_143846427_143834148_143821867_143809584_143797299_143785013_143772725_143760435_143748144_143735850_143723555_143711258_143698959_143686659_143674357_143662053_143649747_143637439_143625130_143612819_143600506_143588192_143575875_143563557_143551237_143538916_143526592_143514267_143501940_143489612_143477281_143464949_143452615_143440279_143427942_143415603_143403262_143390919_143378574_143366228_143353880_143341530_143329179_143316825_143304470_143292113_143279755_143267395_143255032_143242669_143230303_143217936_143205567_143193196_143180823_143168449_143156073_143143695_143131315_143118934_143106551_143094166_143081779_143069391_143057001_143044609_143032215_143019820_143007423_142995024_142982623_142970221_142957817_142945411_142933003_142920594_142908183_142895770_142883355_142870939_142858521_142846101_142833679_142821256_142808831_142796404_142783976_142771546_142759113_142746680_142734244_142721807_142709368_142696927_142684485_142672041_142659595_142647147_142634698_142622246_142609793_142597339_142584882_142572424_142559965_142547503_142535040_142522575_142510108_142497639_142485169_142472697_142460223_142447748_142435271_142422792_142410311_142397829_142385345_142372859_142360371_142347882_142335391_142322898_142310404_142297907_142285409_142272910_142260408_142247905_142235400_142222894_142210385_142197875_142185363_142172850_142160335_142147818_142135299_142122779_142110257_142097733_142085207_142072680_142060151_142047620_142035088_142022553_142010018_141997480_141984941_141972399_141959857_141947312_141934766_141922218_141909668_141897117_141884564_141872009_141859452_141846894_141834334_141821773_141809209_141796644_141784077_141771509_141758938_141746366_141733793_141721217_141708640_141696061_141683481_141670899_141658315_141645729_141633142_141620552_141607962_141595369_141582775_141570179_141557581_141544982_141532381_141519778_141507174_141494567_141481959_141469350_141456739_141444126_141431511_141418894_141406276_141393656_141381035_141368412_141355787_141343160_141330532_141317902_141305270_141292636_141280001_141267364_141254726_141242086_141229444_141216800_141204155_141191507_141178859_141166208_141153556_141140902_141128247_141115589_141102930_141090270_141077607_141064943_141052278_141039610_141026941,
  141014270_141001598_140988924_140976248_140963570_140950891_140938210_140925527_140912843_140900157_140887469_140874780_140862088_140849396_140836701_140824005_140811307_140798608_140785906_140773203_140760499_140747792_140735084_140722375_140709663_140696950_140684235_140671519_140658801_140646081_140633360_140620636_140607912_140595185_140582457_140569727_140556995_140544262_140531527_140518791_140506052_140493312_140480571_140467827_140455082_140442335_140429587_140416837_140404085_140391332_140378577_140365820_140353062_140340301_140327540_140314776_140302011_140289244_140276476_140263706_140250934_140238160_140225385_140212608_140199830_140187049_140174267_140161484_140148699_140135912_140123123_140110333_140097541_140084748_140071952_140059155_140046357_140033557_140020755_140007951_139995146_139982339_139969530_139956720_139943908_139931095_139918279_139905462_139892644_139879824_139867002_139854178_139841353_139828526_139815698_139802867_139790035_139777202_139764367_139751530_139738691_139725851_139713009_139700166_139687321_139674474_139661626_139648775_139635924_139623070_139610215_139597358_139584500_139571640_139558778_139545915_139533050_139520183_139507315_139494445_139481573_139468700_139455825_139442948_139430070_139417190_139404309_139391426_139378541_139365654_139352766_139339876_139326985_139314092_139301197_139288301_139275403_139262503_139249602_139236699_139223794_139210888_139197980_139185070_139172159_139159246_139146332_139133416_139120498_139107579_139094658_139081735_139068811_139055885_139042957_139030028_139017097_139004164_138991230_138978294_138965357_138952418_138939477_138926535_138913591_138900645_138887698_138874749_138861798_138848846_138835892_138822937_138809980_138797021_138784061_138771099_138758135_138745170_138732203_138719234_138706264_138693292_138680319_138667344_138654367_138641389_138628409_138615428_138602444_138589460_138576473_138563485_138550495_138537504_138524511_138511516_138498520_138485522_138472523_138459522_138446519_138433515_138420509_138407501_138394492_138381481_138368469_138355455_138342439_138329422_138316403_138303382_138290360_138277336_138264311_138251284_138238255_138225225_138212193_138199159_138186124_138173087_138160049_138147009_138133967_138120924_138107879_138094833_138081785_138068735_138055684_138042631_138029577_138016520_138003463_137990403_137977342_137964280_137951216_137938150_137925082_137912013_137898943_137885870_137872797_137859721_137846644_137833565_137820485_137807403_137794320_137781235_137768148_137755060_137741970_137728878,
  137715785_137702690_137689594_137676496_137663396_137650295_137637192_137624088_137610982_137597875_137584765_137571655_137558542_137545428_137532313_137519196_137506077_137492956_137479834_137466711_137453586_137440459_137427331_137414201_137401069_137387936_137374801_137361665_137348527_137335387_137322246_137309104_137295959_137282813_137269666_137256517_137243366_137230214_137217060_137203905_137190748_137177589_137164429_137151267_137138104_137124939_137111772_137098604_137085434_137072263_137059090_137045915_137032739_137019561_137006382_136993201_136980019_136966835_136953649_136940462_136927273_136914083_136900891_136887697_136874502_136861306_136848107_136834907_136821706_136808503_136795298_136782092_136768884_136755675_136742464_136729252_136716038_136702822_136689605_136676386_136663166_136649944_136636720_136623495_136610268_136597040_136583810_136570579_136557346_136544111_136530875_136517638_136504398_136491157_136477915_136464671_136451425_136438178_136424930_136411679_136398428_136385174_136371919_136358663_136345405_136332145_136318884_136305621_136292356_136279090_136265823_136252554_136239283_136226011_136212737_136199462_136186185_136172907_136159627_136146345_136133062_136119777_136106491_136093203_136079914_136066623_136053330_136040036_136026741_136013443_136000145_135986844_135973542_135960239_135946934_135933628_135920319_135907010_135893699_135880386_135867071_135853756_135840438_135827119_135813799_135800477_135787153_135773828_135760501_135747173_135733843_135720512_135707179_135693844_135680508_135667170_135653831_135640491_135627148_135613805_135600459_135587112_135573764_135560414_135547062_135533709_135520355_135506999_135493641_135480282_135466921_135453559_135440195_135426829_135413462_135400094_135386724_135373352_135359979_135346604_135333228_135319850_135306471_135293090_135279708_135266324_135252938_135239551_135226163_135212773_135199381_135185988_135172593_135159197_135145799_135132400_135118999_135105597_135092193_135078788_135065381_135051972_135038562_135025151_135011738_134998323_134984907_134971489_134958070_134944649_134931227_134917803_134904378_134890951_134877523_134864093_134850661_134837228_134823794_134810358_134796920_134783481_134770041_134756598_134743155_134729710_134716263_134702815_134689365_134675914_134662461_134649007_134635551_134622093_134608635_134595174_134581712_134568249_134554784_134541317_134527849_134514380_134500909_134487436_134473962_134460487_134447010_134433531_134420051_134406569_134393086_134379601_134366115_134352628_134339138_134325648,
  134312155_134298662_134285166_134271670_134258171_134244671_134231170_134217667_134204163_134190657_134177150_134163641_134150131_134136619_134123105_134109590_134096074_134082556_134069037_134055516_134041993_134028469_134014944_134001417_133987889_133974359_133960827_133947294_133933760_133920224_133906686_133893147_133879607_133866065_133852521_133838977_133825430_133811882_133798333_133784782_133771229_133757675_133744120_133730563_133717004_133703444_133689883_133676320_133662756_133649190_133635622_133622053_133608483_133594911_133581338_133567763_133554186_133540608_133527029_133513448_133499866_133486282_133472697_133459110_133445521_133431932_133418340_133404748_133391153_133377557_133363960_133350361_133336761_133323160_133309556_133295952_133282345_133268738_133255129_133241518_133227906_133214292_133200677_133187061_133173443_133159823_133146202_133132580_133118956_133105330_133091703_133078075_133064445_133050814_133037181_133023547_133009911_132996274_132982635_132968995_132955353_132941710_132928065_132914419_132900771_132887122_132873472_132859820_132846166_132832511_132818855_132805197_132791537_132777876_132764214_132750550_132736885_132723218_132709550_132695880_132682209_132668537_132654862_132641187_132627510_132613831_132600151_132586470_132572787_132559103_132545417_132531730_132518041_132504351_132490659_132476966_132463271_132449575_132435877_132422178_132408478_132394776_132381073_132367368_132353662_132339954_132326245_132312534_132298822_132285108_132271393_132257677_132243959_132230239_132216518_132202796_132189072_132175347_132161620_132147892_132134162_132120431_132106699_132092965_132079229_132065492_132051754_132038014_132024273_132010530_131996786_131983041_131969293_131955545_131941795_131928044_131914291_131900536_131886781_131873024_131859265_131845505_131831743_131817980_131804216_131790450_131776683_131762914_131749144_131735372_131721599_131707824_131694049_131680271_131666492_131652712_131638930_131625147_131611362_131597576_131583789_131570000_131556210_131542418_131528624_131514830_131501034_131487236_131473437_131459637_131445835_131432031_131418227_131404420_131390613_131376804_131362993_131349181_131335368_131321553_131307737_131293919_131280100_131266280_131252458_131238634_131224810_131210983_131197156_131183327_131169496_131155664_131141831_131127996_131114160_131100322_131086483_131072643_131058801_131044957_131031112_131017266_131003419_130989570_130975719_130961867_130948014_130934159_130920303_130906445_130892586_130878726_130864864_130851001_130837136_130823270,
  130809402_130795533_130781663_130767791_130753918_130740044_130726167_130712290_130698411_130684531_130670649_130656766_130642882_130628996_130615108_130601219_130587329_130573438_130559545_130545650_130531754_130517857_130503959_130490058_130476157_130462254_130448350_130434444_130420537_130406628_130392719_130378807_130364894_130350980_130337065_130323148_130309229_130295310_130281388_130267466_130253542_130239617_130225690_130211762_130197832_130183901_130169969_130156035_130142100_130128163_130114225_130100286_130086345_130072403_130058459_130044514_130030568_130016620_130002671_129988720_129974768_129960815_129946860_129932904_129918946_129904987_129891027_129877065_129863102_129849137_129835171_129821204_129807235_129793265_129779294_129765321_129751347_129737371_129723394_129709415_129695436_129681454_129667472_129653488_129639502_129625516_129611527_129597538_129583547_129569555_129555561_129541566_129527569_129513571_129499572_129485572_129471570_129457566_129443561_129429555_129415548_129401539_129387529_129373517_129359504_129345489_129331474_129317456_129303438_129289418_129275396_129261374_129247350_129233324_129219297_129205269_129191240_129177209_129163176_129149143_129135107_129121071_129107033_129092994_129078953_129064911_129050868_129036823_129022777_129008730_128994681_128980631_128966579_128952526_128938472_128924416_128910359_128896301_128882241_128868180_128854118_128840054_128825989_128811922_128797854_128783785_128769714_128755642_128741569_128727494_128713418_128699340_128685261_128671181_128657099_128643016_128628932_128614847_128600759_128586671_128572581_128558490_128544398_128530304_128516209_128502112_128488014_128473915_128459815_128445713_128431609_128417505_128403399_128389291_128375182_128361072_128346961_128332848_128318734_128304618_128290502_128276383_128262264_128248143_128234021_128219897_128205772_128191646_128177518_128163389_128149259_128135127_128120994_128106860_128092724_128078587_128064449_128050309_128036168_128022025_128007881_127993736_127979590_127965442_127951293_127937142_127922990_127908837_127894683_127880527_127866370_127852211_127838051_127823890_127809727_127795564_127781398_127767232_127753064_127738895_127724724_127710552_127696379_127682204_127668028_127653851_127639672_127625492_127611311_127597128_127582945_127568759_127554573_127540385_127526195_127512005_127497813_127483620_127469425_127455229_127441032_127426833_127412633_127398432_127384230_127370026_127355821_127341614_127327406_127313197_127298987_127284775_127270562_127256347_127242131_127227914,
  127213696_127199476_127185255_127171032_127156809_127142584_127128357_127114130_127099900_127085670_127071438_127057206_127042971_127028736_127014499_127000260_126986021_126971780_126957538_126943294_126929049_126914803_126900556_126886307_126872057_126857806_126843553_126829299_126815044_126800787_126786529_126772270_126758009_126743747_126729484_126715220_126700954_126686687_126672418_126658148_126643877_126629605_126615331_126601056_126586780_126572503_126558224_126543943_126529662_126515379_126501095_126486810_126472523_126458235_126443946_126429655_126415363_126401070_126386775_126372480_126358182_126343884_126329584_126315283_126300981_126286677_126272372_126258066_126243759_126229450_126215140_126200828_126186516_126172202_126157887_126143570_126129252_126114933_126100612_126086291_126071968_126057643_126043318_126028991_126014663_126000333_125986002_125971670_125957337_125943002_125928666_125914329_125899991_125885651_125871310_125856967_125842624_125828279_125813933_125799585_125785236_125770886_125756535_125742182_125727828_125713473_125699116_125684759_125670400_125656039_125641678_125627315_125612951_125598585_125584218_125569850_125555481_125541110_125526739_125512365_125497991_125483615_125469238_125454860_125440481_125426100_125411718_125397334_125382950_125368564_125354177_125339788_125325399_125311008_125296615_125282222_125267827_125253431_125239034_125224635_125210235_125195834_125181432_125167028_125152623_125138217_125123809_125109401_125094991_125080579_125066167_125051753_125037338_125022922_125008504_124994085_124979665_124965244_124950821_124936397_124921972_124907545_124893118_124878689_124864259_124849827_124835394_124820960_124806525_124792089_124777651_124763212_124748772_124734330_124719887_124705443_124690998_124676551_124662103_124647654_124633204_124618752_124604300_124589846_124575390_124560934_124546476_124532017_124517556_124503095_124488632_124474168_124459702_124445236_124430768_124416299_124401829_124387357_124372884_124358410_124343935_124329458_124314980_124300501_124286021_124271539_124257057_124242573_124228087_124213601_124199113_124184624_124170134_124155642_124141150_124126656_124112160_124097664_124083166_124068667_124054167_124039666_124025163_124010659_123996154_123981648_123967140_123952631_123938121_123923610_123909097_123894584_123880069_123865552_123851035_123836516_123821996_123807475_123792953_123778429_123763904_123749378_123734851_123720322_123705793_123691262_123676729_123662196_123647661_123633125_123618588_123604050_123589510_123574969_123560427_123545884,
  123531339_123516794_123502247_123487699_123473149_123458599_123444047_123429494_123414939_123400384_123385827_123371269_123356710_123342150_123327588_123313025_123298461_123283896_123269330_123254762_123240193_123225623_123211051_123196479_123181905_123167330_123152754_123138177_123123598_123109018_123094437_123079855_123065271_123050687_123036101_123021513_123006925_122992336_122977745_122963153_122948560_122933965_122919370_122904773_122890175_122875576_122860975_122846374_122831771_122817167_122802562_122787955_122773348_122758739_122744129_122729517_122714905_122700291_122685676_122671060_122656443_122641825_122627205_122612584_122597962_122583339_122568714_122554089_122539462_122524834_122510204_122495574_122480942_122466309_122451675_122437040_122422404_122407766_122393127_122378487_122363846_122349204_122334560_122319915_122305269_122290622_122275974_122261324_122246673_122232021_122217368_122202714_122188058_122173402_122158744_122144085_122129424_122114763_122100100_122085437_122070772_122056105_122041438_122026769_122012100_121997429_121982757_121968083_121953409_121938733_121924056_121909378_121894699_121880019_121865337_121850654_121835970_121821285_121806599_121791912_121777223_121762533_121747842_121733150_121718457_121703762_121689066_121674369_121659671_121644972_121630272_121615570_121600867_121586164_121571458_121556752_121542045_121527336_121512626_121497915_121483203_121468490_121453775_121439060_121424343_121409625_121394906_121380186_121365464_121350742_121336018_121321293_121306567_121291839_121277111_121262381_121247650_121232918_121218185_121203451_121188716_121173979_121159241_121144502_121129762_121115021_121100279_121085535_121070790_121056044_121041297_121026549_121011800_120997049_120982297_120967545_120952791_120938035_120923279_120908522_120893763_120879003_120864242_120849480_120834717_120819953_120805187_120790420_120775653_120760884_120746113_120731342_120716570_120701796_120687021_120672246_120657468_120642690_120627911_120613130_120598349_120583566_120568782_120553997_120539211_120524423_120509635_120494845_120480055_120465263_120450470_120435675_120420880_120406083_120391286_120376487_120361687_120346886_120332084_120317280_120302476_120287670_120272864_120258056_120243247_120228436_120213625_120198813_120183999_120169184_120154369_120139552_120124733_120109914_120095094_120080272_120065450_120050626_120035801_120020975_120006148_119991319_119976490_119961659_119946828_119931995_119917161_119902326_119887490_119872652_119857814_119842974_119828133_119813291_119798449_119783604,
  119768759_119753913_119739065_119724217_119709367_119694516_119679664_119664811_119649957_119635102_119620245_119605387_119590529_119575669_119560808_119545946_119531083_119516218_119501353_119486487_119471619_119456750_119441880_119427009_119412137_119397264_119382390_119367514_119352638_119337760_119322881_119308001_119293120_119278238_119263355_119248470_119233585_119218698_119203811_119188922_119174032_119159141_119144249_119129356_119114461_119099566_119084669_119069772_119054873_119039973_119025072_119010170_118995267_118980362_118965457_118950550_118935643_118920734_118905824_118890913_118876001_118861088_118846174_118831259_118816342_118801425_118786506_118771587_118756666_118741744_118726821_118711897_118696972_118682045_118667118_118652189_118637260_118622329_118607397_118592465_118577531_118562596_118547659_118532722_118517784_118502844_118487904_118472962_118458020_118443076_118428131_118413185_118398238_118383290_118368341_118353390_118338439_118323486_118308533_118293578_118278622_118263666_118248708_118233749_118218789_118203827_118188865_118173902_118158937_118143972_118129005_118114038_118099069_118084099_118069128_118054156_118039183_118024209_118009234_117994258_117979280_117964302_117949322_117934342_117919360_117904377_117889393_117874408_117859422_117844435_117829447_117814458_117799468_117784476_117769484_117754491_117739496_117724500_117709504_117694506_117679507_117664507_117649506_117634504_117619501_117604497_117589491_117574485_117559478_117544469_117529460_117514449_117499438_117484425_117469411_117454396_117439380_117424363_117409345_117394326_117379306_117364285_117349263_117334239_117319215_117304189_117289163_117274135_117259107_117244077_117229046_117214014_117198981_117183948_117168913_117153877_117138839_117123801_117108762_117093722_117078680_117063638_117048595_117033550_117018505_117003458_116988410_116973362_116958312_116943261_116928209_116913157_116898103_116883048_116867992_116852935_116837876_116822817_116807757_116792696_116777633_116762570_116747506_116732440_116717374_116702306_116687238_116672168_116657097_116642026_116626953_116611879_116596804_116581728_116566652_116551574_116536495_116521415_116506333_116491251_116476168_116461084_116445999_116430913_116415825_116400737_116385648_116370557_116355466_116340373_116325280_116310185_116295090_116279993_116264895_116249797_116234697_116219596_116204494_116189392_116174288_116159183_116144077_116128970_116113862_116098753_116083643_116068532_116053420_116038307_116023193_116008078_115992962_115977844_115962726_115947607,
  115932487_115917365_115902243_115887120_115871995_115856870_115841744_115826616_115811488_115796358_115781228_115766096_115750964_115735830_115720696_115705560_115690424_115675286_115660147_115645008_115629867_115614725_115599583_115584439_115569294_115554149_115539002_115523854_115508705_115493556_115478405_115463253_115448100_115432946_115417792_115402636_115387479_115372321_115357162_115342002_115326841_115311679_115296517_115281353_115266188_115251022_115235855_115220687_115205518_115190348_115175177_115160005_115144832_115129658_115114483_115099307_115084130_115068952_115053773_115038593_115023413_115008231_114993048_114977864_114962679_114947493_114932306_114917118_114901929_114886739_114871548_114856356_114841163_114825969_114810774_114795578_114780381_114765184_114749985_114734785_114719584_114704382_114689179_114673975_114658770_114643565_114628358_114613150_114597941_114582731_114567521_114552309_114537096_114521882_114506668_114491452_114476235_114461018_114445799_114430579_114415359_114400137_114384914_114369691_114354466_114339241_114324014_114308787_114293558_114278329_114263098_114247867_114232634_114217401_114202167_114186931_114171695_114156458_114141219_114125980_114110740_114095499_114080256_114065013_114049769_114034524_114019278_114004031_113988783_113973534_113958284_113943033_113927781_113912528_113897274_113882019_113866764_113851507_113836249_113820990_113805731_113790470_113775209_113759946_113744682_113729418_113714152_113698886_113683619_113668350_113653081_113637811_113622539_113607267_113591994_113576720_113561445_113546169_113530892_113515614_113500335_113485055_113469774_113454492_113439209_113423926_113408641_113393355_113378069_113362781_113347492_113332203_113316913_113301621_113286329_113271036_113255741_113240446_113225150_113209853_113194555_113179256_113163956_113148655_113133353_113118050_113102746_113087442_113072136_113056829_113041522_113026213_113010904_112995593_112980282_112964970_112949657_112934342_112919027_112903711_112888394_112873076_112857757_112842437_112827117_112811795_112796472_112781149_112765824_112750498_112735172_112719845_112704516_112689187_112673857_112658526_112643194_112627861_112612527_112597192_112581856_112566519_112551182_112535843_112520503_112505163_112489821_112474479_112459136_112443792_112428446_112413100_112397753_112382405_112367056_112351707_112336356_112321004_112305652_112290298_112274944_112259588_112244232_112228875_112213517_112198157_112182797_112167437_112152075_112136712_112121348_112105984_112090618_112075251_112059884_112044516,
  112029146_112013776_111998405_111983033_111967660_111952286_111936912_111921536_111906159_111890782_111875403_111860024_111844644_111829263_111813880_111798497_111783113_111767729_111752343_111736956_111721569_111706180_111690791_111675400_111660009_111644617_111629224_111613830_111598435_111583039_111567642_111552245_111536846_111521447_111506047_111490645_111475243_111459840_111444436_111429031_111413625_111398219_111382811_111367403_111351993_111336583_111321172_111305760_111290347_111274933_111259518_111244102_111228686_111213268_111197850_111182430_111167010_111151589_111136167_111120744_111105320_111089895_111074470_111059043_111043616_111028188_111012759_110997328_110981897_110966466_110951033_110935599_110920165_110904729_110889293_110873856_110858418_110842979_110827539_110812098_110796656_110781214_110765770_110750326_110734881_110719434_110703987_110688540_110673091_110657641_110642191_110626739_110611287_110595834_110580380_110564925_110549469_110534012_110518554_110503096_110487637_110472176_110456715_110441253_110425790_110410326_110394862_110379396_110363930_110348463_110332994_110317525_110302055_110286585_110271113_110255640_110240167_110224693_110209217_110193741_110178264_110162787_110147308_110131828_110116348_110100867_110085385_110069902_110054418_110038933_110023447_110007961_109992473_109976985_109961496_109946006_109930515_109915024_109899531_109884038_109868543_109853048_109837552_109822055_109806557_109791059_109775559_109760059_109744558_109729056_109713553_109698049_109682544_109667039_109651532_109636025_109620517_109605008_109589498_109573988_109558476_109542964_109527451_109511936_109496422_109480906_109465389_109449872_109434353_109418834_109403314_109387793_109372271_109356749_109341225_109325701_109310176_109294650_109279123_109263595_109248066_109232537_109217007_109201476_109185944_109170411_109154877_109139343_109123807_109108271_109092734_109077196_109061657_109046118_109030577_109015036_108999494_108983951_108968407_108952863_108937317_108921771_108906224_108890676_108875127_108859577_108844027_108828475_108812923_108797370_108781816_108766261_108750706_108735150_108719592_108704034_108688475_108672916_108657355_108641794_108626232_108610668_108595105_108579540_108563974_108548408_108532841_108517273_108501704_108486134_108470564_108454992_108439420_108423847_108408273_108392699_108377123_108361547_108345970_108330392_108314813_108299233_108283653_108268072_108252490_108236907_108221323_108205738_108190153_108174567_108158980_108143392_108127803_108112214_108096624_108081033,
  108065441_108049848_108034254_108018660_108003065_107987469_107971872_107956274_107940676_107925076_107909476_107893876_107878274_107862671_107847068_107831464_107815859_107800253_107784646_107769039_107753431_107737822_107722212_107706601_107690990_107675378_107659765_107644151_107628536_107612921_107597304_107581687_107566069_107550451_107534831_107519211_107503590_107487968_107472345_107456721_107441097_107425472_107409846_107394219_107378592_107362963_107347334_107331704_107316074_107300442_107284810_107269177_107253543_107237908_107222273_107206636_107190999_107175361_107159723_107144083_107128443_107112802_107097160_107081517_107065874_107050229_107034584_107018939_107003292_106987644_106971996_106956347_106940698_106925047_106909396_106893743_106878090_106862437_106846782_106831127_106815471_106799814_106784156_106768498_106752839_106737179_106721518_106705856_106690194_106674531_106658867_106643202_106627537_106611870_106596203_106580536_106564867_106549198_106533527_106517857_106502185_106486512_106470839_106455165_106439490_106423815_106408138_106392461_106376783_106361104_106345425_106329745_106314064_106298382_106282699_106267016_106251332_106235647_106219961_106204275_106188588_106172900_106157211_106141522_106125831_106110140_106094449_106078756_106063063_106047369_106031674_106015978_106000282_105984585_105968887_105953188_105937489_105921788_105906087_105890386_105874683_105858980_105843276_105827571_105811866_105796159_105780452_105764744_105749036_105733326_105717616_105701906_105686194_105670482_105654768_105639055_105623340_105607625_105591908_105576192_105560474_105544756_105529036_105513317_105497596_105481874_105466152_105450429_105434706_105418981_105403256_105387530_105371804_105356076_105340348_105324619_105308890_105293159_105277428_105261696_105245964_105230230_105214496_105198761_105183026_105167289_105151552_105135814_105120076_105104337_105088596_105072856_105057114_105041372_105025629_105009885_104994141_104978395_104962649_104946903_104931155_104915407_104899658_104883909_104868158_104852407_104836655_104820903_104805149_104789395_104773640_104757885_104742129_104726372_104710614_104694855_104679096_104663336_104647576_104631814_104616052_104600289_104584526_104568762_104552997_104537231_104521464_104505697_104489929_104474161_104458391_104442621_104426850_104411079_104395307_104379534_104363760_104347985_104332210_104316434_104300658_104284880_104269102_104253324_104237544_104221764_104205983_104190201_104174419_104158636_104142852_104127068_104111283_104095497_104079710_104063923,
  104048135_104032346_104016556_104000766_103984975_103969183_103953391_103937598_103921804_103906010_103890215_103874419_103858622_103842825_103827027_103811228_103795429_103779628_103763828_103748026_103732224_103716421_103700617_103684813_103669008_103653202_103637395_103621588_103605780_103589972_103574162_103558352_103542541_103526730_103510918_103495105_103479292_103463477_103447662_103431847_103416031_103400214_103384396_103368577_103352758_103336939_103321118_103305297_103289475_103273652_103257829_103242005_103226180_103210355_103194529_103178702_103162875_103147047_103131218_103115389_103099558_103083727_103067896_103052064_103036231_103020397_103004563_102988728_102972892_102957056_102941219_102925381_102909542_102893703_102877863_102862023_102846182_102830340_102814497_102798654_102782810_102766966_102751120_102735275_102719428_102703581_102687733_102671884_102656035_102640185_102624334_102608483_102592630_102576778_102560924_102545070_102529216_102513360_102497504_102481647_102465790_102449932_102434073_102418213_102402353_102386492_102370631_102354769_102338906_102323042_102307178_102291313_102275448_102259582_102243715_102227847_102211979_102196110_102180241_102164371_102148500_102132628_102116756_102100883_102085010_102069136_102053261_102037386_102021509_102005633_101989755_101973877_101957998_101942119_101926239_101910358_101894476_101878594_101862712_101846828_101830944_101815059_101799174_101783288_101767401_101751514_101735626_101719737_101703848_101687958_101672068_101656176_101640284_101624392_101608499_101592605_101576710_101560815_101544919_101529023_101513126_101497228_101481329_101465430_101449531_101433630_101417729_101401828_101385925_101370022_101354119_101338215_101322310_101306404_101290498_101274591_101258684_101242776_101226867_101210958_101195048_101179137_101163226_101147314_101131401_101115488_101099574_101083660_101067744_101051829_101035912_101019995_101004078_100988159_100972240_100956321_100940401_100924480_100908558_100892636_100876713_100860790_100844866_100828941_100813016_100797090_100781164_100765237_100749309_100733380_100717451_100701522_100685591_100669660_100653729_100637797_100621864_100605930_100589996_100574062_100558126_100542190_100526254_100510317_100494379_100478440_100462501_100446562_100430621_100414680_100398739_100382797_100366854_100350911_100334967_100319022_100303077_100287131_100271184_100255237_100239289_100223341_100207392_100191443_100175492_100159542_100143590_100127638_100111686_100095732_100079778_100063824_100047869_100031913_100015957_100000000]

/-- `_acg3_vtable`, pmesh/_window_acg.h:2086-4134: 8192 entries. -/
def acg3Rows : List ℕ := [
  152299496_152299496_152299493_152299488_152299481_152299473_152299462_152299450_152299435_152299419_152299401_152299381_152299358_152299335_152299309_152299281_152299251_152299220_152299186_152299151_152299113_152299074_152299033_152298990_152298945_152298898_152298849_152298798_152298745_152298691_152298634_152298576_152298515_152298453_152298389_152298323_152298255_152298185_152298113_152298039_152297963_152297886_152297806_152297725_152297641_152297556_152297469_152297380_152297289_152297196_152297101_152297004_152296906_152296805_152296702_152296598_152296492_152296383_152296273_152296161_152296047_152295931_152295813_152295693_152295572_152295448_152295323_152295195_152295066_152294935_152294801_152294666_152294529_152294390_152294249_152294107_152293962_152293815_152293667_152293517_152293364_152293210_152293054_152292896_152292736_152292574_152292410_152292244_152292076_152291907_152291735_152291562_152291387_152291209_152291030_152290849_152290666_152290481_152290294_152290105_152289915_152289722_152289528_152289331_152289133_152288933_152288731_152288526_152288321_152288113_152287903_152287691_152287477_152287262_152287044_152286825_152286604_152286380_152286155_152285928_152285699_152285468_152285235_152285001_152284764_152284525_152284285_152284043_152283798_152283552_152283304_152283054_152282802_152282548_152282292_152282034_152281775_152281513_152281250_152280984_152280717_152280448_152280177_152279904_152279629_152279352_152279073_152278792_152278510_152278225_152277939_152277650_152277360_152277068_152276774_152276478_152276180_152275880_152275578_152275274_152274969_152274661_152274352_152274040_152273727_152273412_152273095_152272776_152272455_152272132_152271807_152271480_152271152_152270821_152270489_152270155_152269818_152269480_152269140_152268798_152268454_152268108_152267760_152267411_152267059_152266706_152266350_152265993_152265634_152265273_152264909_152264544_152264178_152263809_152263438_152263065_152262691_152262314_152261936_152261556_152261173_152260789_152260403_152260015_152259625_152259234_152258840_152258444_152258047_152257647_152257246_152256843_152256437_152256030_152255621_152255210_152254797_152254383_152253966_152253547_152253127_152252704_152252280_152251854_152251425_152250995_152250563_152250129_152249694_152249256_152248816_152248375_152247931_152247486_152247038_152246589_152246138_152245685_152245230_152244773_152244314_152243853_152243391_152242926_152242460_152241991_152241521_152241049_152240575_152240099_152239621_152239141_152238659_152238175_152237690_152237202,
  152236713_152236221_152235728_152235233_152234736_152234237_152233736_152233233_152232728_152232222_152231713_152231203_152230690_152230176_152229660_152229142_152228621_152228099_152227576_152227050_152226522_152225992_152225461_152224927_152224392_152223855_152223316_152222774_152222231_152221686_152221140_152220591_152220040_152219488_152218933_152218377_152217818_152217258_152216696_152216132_152215566_152214998_152214428_152213856_152213283_152212707_152212130_152211550_152210969_152210386_152209801_152209214_152208625_152208034_152207441_152206846_152206250_152205651_152205051_152204448_152203844_152203238_152202630_152202020_152201408_152200794_152200179_152199561_152198941_152198320_152197696_152197071_152196444_152195815_152195184_152194551_152193916_152193279_152192641_152192000_152191357_152190713_152190067_152189419_152188768_152188116_152187462_152186806_152186149_152185489_152184827_152184164_152183498_152182831_152182162_152181490_152180817_152180142_152179465_152178787_152178106_152177423_152176739_152176052_152175364_152174673_152173981_152173287_152172591_152171893_152171193_152170491_152169788_152169082_152168375_152167665_152166954_152166241_152165525_152164808_152164089_152163368_152162646_152161921_152161194_152160466_152159735_152159003_152158269_152157532_152156794_152156054_152155312_152154569_152153823_152153075_152152326_152151574_152150821_152150065_152149308_152148549_152147788_152147025_152146260_152145494_152144725_152143954_152143182_152142407_152141631_152140853_152140073_152139291_152138507_152137721_152136933_152136143_152135352_152134558_152133763_152132966_152132166_152131365_152130562_152129757_152128950_152128141_152127331_152126518_152125704_152124887_152124069_152123249_152122426_152121602_152120776_152119948_152119119_152118287_152117453_152116618_152115780_152114941_152114100_152113257_152112412_152111565_152110716_152109865_152109012_152108158_152107301_152106443_152105582_152104720_152103856_152102990_152102122_152101252_152100380_152099506_152098631_152097753_152096874_152095992_152095109_152094224_152093337_152092448_152091557_152090664_152089769_152088873_152087974_152087074_152086171_152085267_152084361_152083453_152082543_152081631_152080717_152079802_152078884_152077964_152077043_152076120_152075194_152074267_152073338_152072407_152071474_152070539_152069603_152068664_152067724_152066781_152065837_152064891_152063943_152062992_152062040_152061087_152060131_152059173_152058214_152057252_152056289_152055323_152054356_152053387_152052416_152051443_152050468_152049491,
  152048513_152047532_152046550_152045565_152044579_152043591_152042601_152041609_152040615_152039619_152038621_152037622_152036620_152035617_152034611_152033604_152032595_152031584_152030571_152029556_152028539_152027520_152026500_152025477_152024453_152023426_152022398_152021368_152020336_152019302_152018266_152017228_152016189_152015147_152014104_152013058_152012011_152010962_152009911_152008857_152007803_152006746_152005687_152004626_152003564_152002499_152001433_152000365_151999295_151998222_151997149_151996073_151994995_151993915_151992834_151991750_151990665_151989577_151988488_151987397_151986304_151985209_151984112_151983013_151981913_151980810_151979706_151978599_151977491_151976381_151975269_151974155_151973039_151971921_151970801_151969680_151968556_151967431_151966304_151965174_151964043_151962910_151961775_151960639_151959500_151958359_151957217_151956072_151954926_151953778_151952627_151951475_151950321_151949165_151948008_151946848_151945686_151944523_151943358_151942190_151941021_151939850_151938677_151937502_151936325_151935147_151933966_151932783_151931599_151930413_151929224_151928034_151926842_151925648_151924452_151923255_151922055_151920854_151919650_151918445_151917238_151916028_151914817_151913604_151912389_151911173_151909954_151908733_151907511_151906287_151905060_151903832_151902602_151901370_151900136_151898900_151897663_151896423_151895182_151893938_151892693_151891446_151890197_151888946_151887693_151886438_151885181_151883923_151882662_151881400_151880136_151878869_151877601_151876331_151875059_151873785_151872510_151871232_151869953_151868671_151867388_151866103_151864816_151863527_151862236_151860943_151859648_151858352_151857053_151855753_151854450_151853146_151851840_151850532_151849222_151847910_151846596_151845281_151843963_151842644_151841323_151839999_151838674_151837347_151836018_151834688_151833355_151832020_151830684_151829345_151828005_151826663_151825319_151823973_151822625_151821275_151819923_151818570_151817214_151815857_151814497_151813136_151811773_151810408_151809041_151807673_151806302_151804929_151803555_151802178_151800800_151799420_151798038_151796654_151795268_151793880_151792491_151791099_151789706_151788310_151786913_151785514_151784113_151782710_151781305_151779898_151778489_151777079_151775667_151774252_151772836_151771418_151769998_151768576_151767152_151765726_151764299_151762869_151761438_151760004_151758569_151757132_151755693_151754252_151752809_151751365_151749918_151748470_151747019_151745567_151744113_151742657_151741199_151739739_151738277_151736814,
  151735348_151733881_151732411_151730940_151729467_151727992_151726515_151725036_151723556_151722073_151720588_151719102_151717614_151716124_151714632_151713138_151711642_151710144_151708644_151707143_151705639_151704134_151702627_151701118_151699607_151698094_151696579_151695062_151693544_151692023_151690501_151688976_151687450_151685922_151684392_151682860_151681327_151679791_151678253_151676714_151675173_151673629_151672084_151670537_151668988_151667438_151665885_151664330_151662774_151661215_151659655_151658093_151656529_151654963_151653395_151651826_151650254_151648680_151647105_151645528_151643949_151642367_151640784_151639200_151637613_151636024_151634434_151632841_151631247_151629651_151628053_151626453_151624851_151623247_151621641_151620034_151618424_151616813_151615200_151613584_151611967_151610349_151608728_151607105_151605480_151603854_151602226_151600595_151598963_151597329_151595693_151594055_151592416_151590774_151589131_151587485_151585838_151584189_151582538_151580885_151579230_151577573_151575915_151574254_151572592_151570927_151569261_151567593_151565923_151564251_151562578_151560902_151559225_151557545_151555864_151554181_151552496_151550809_151549120_151547429_151545736_151544042_151542346_151540647_151538947_151537245_151535541_151533835_151532127_151530418_151528706_151526993_151525278_151523560_151521841_151520120_151518398_151516673_151514946_151513218_151511487_151509755_151508021_151506285_151504547_151502807_151501065_151499322_151497576_151495829_151494080_151492329_151490576_151488821_151487064_151485305_151483545_151481782_151480018_151478252_151476483_151474713_151472941_151471168_151469392_151467614_151465835_151464054_151462271_151460485_151458698_151456910_151455119_151453326_151451532_151449735_151447937_151446137_151444335_151442531_151440725_151438917_151437108_151435296_151433483_151431667_151429850_151428031_151426210_151424388_151422563_151420736_151418908_151417078_151415245_151413411_151411575_151409737_151407898_151406056_151404212_151402367_151400520_151398671_151396819_151394967_151393112_151391255_151389396_151387536_151385674_151383809_151381943_151380075_151378205_151376334_151374460_151372584_151370707_151368828_151366947_151365063_151363178_151361292_151359403_151357512_151355620_151353726_151351829_151349931_151348031_151346129_151344226_151342320_151340412_151338503_151336592_151334678_151332763_151330847_151328928_151327007_151325084_151323160_151321234_151319305_151317375_151315443_151313510_151311574_151309636_151307697_151305755_151303812_151301867_151299920,
  151297971_151296020_151294068_151292113_151290157_151288198_151286238_151284276_151282312_151280346_151278379_151276409_151274438_151272464_151270489_151268512_151266533_151264552_151262569_151260585_151258598_151256610_151254620_151252628_151250634_151248638_151246640_151244640_151242639_151240636_151238630_151236623_151234614_151232603_151230591_151228576_151226559_151224541_151222521_151220499_151218474_151216449_151214421_151212391_151210360_151208326_151206291_151204254_151202215_151200174_151198131_151196086_151194040_151191991_151189941_151187889_151185835_151183779_151181721_151179661_151177600_151175536_151173471_151171404_151169335_151167264_151165191_151163117_151161040_151158962_151156881_151154799_151152715_151150629_151148541_151146452_151144360_151142267_151140171_151138074_151135975_151133874_151131771_151129667_151127560_151125452_151123342_151121229_151119115_151117000_151114882_151112762_151110641_151108517_151106392_151104265_151102136_151100005_151097872_151095737_151093601_151091463_151089322_151087180_151085036_151082890_151080743_151078593_151076442_151074288_151072133_151069976_151067817_151065656_151063493_151061329_151059162_151056994_151054824_151052652_151050478_151048302_151046124_151043945_151041763_151039580_151037395_151035208_151033019_151030828_151028636_151026441_151024245_151022047_151019846_151017645_151015441_151013235_151011027_151008818_151006607_151004393_151002178_150999961_150997743_150995522_150993299_150991075_150988849_150986621_150984390_150982159_150979925_150977689_150975452_150973212_150970971_150968728_150966483_150964236_150961988_150959737_150957485_150955230_150952974_150950716_150948456_150946194_150943931_150941665_150939398_150937129_150934858_150932585_150930310_150928033_150925755_150923474_150921192_150918908_150916622_150914334_150912044_150909752_150907459_150905164_150902866_150900567_150898266_150895964_150893659_150891352_150889044_150886734_150884421_150882107_150879792_150877474_150875154_150872833_150870510_150868184_150865857_150863528_150861198_150858865_150856530_150854194_150851856_150849516_150847174_150844830_150842484_150840137_150837787_150835436_150833083_150830728_150828371_150826012_150823652_150821289_150818925_150816559_150814191_150811821_150809449_150807075_150804700_150802323_150799943_150797562_150795179_150792795_150790408_150788019_150785629_150783237_150780843_150778447_150776049_150773649_150771248_150768844_150766439_150764032_150761623_150759212_150756799_150754385_150751968_150749550_150747130_150744708_150742284_150739858,
  150737431_150735001_150732570_150730137_150727702_150725265_150722826_150720386_150717943_150715499_150713053_150710605_150708155_150705703_150703250_150700794_150698337_150695878_150693417_150690954_150688489_150686022_150683554_150681084_150678611_150676137_150673662_150671184_150668704_150666223_150663739_150661254_150658767_150656278_150653788_150651295_150648801_150646304_150643806_150641306_150638804_150636300_150633795_150631287_150628778_150626267_150623754_150621239_150618722_150616204_150613683_150611161_150608637_150606111_150603583_150601053_150598522_150595989_150593453_150590916_150588377_150585836_150583294_150580749_150578203_150575655_150573104_150570552_150567999_150565443_150562886_150560326_150557765_150555202_150552637_150550070_150547502_150544931_150542359_150539785_150537209_150534631_150532051_150529469_150526886_150524301_150521714_150519125_150516534_150513941_150511347_150508750_150506152_150503552_150500950_150498346_150495740_150493133_150490524_150487912_150485299_150482685_150480068_150477449_150474829_150472206_150469582_150466956_150464328_150461699_150459067_150456434_150453799_150451162_150448523_150445882_150443239_150440595_150437948_150435300_150432650_150429998_150427345_150424689_150422032_150419372_150416711_150414048_150411383_150408717_150406048_150403378_150400706_150398032_150395356_150392678_150389999_150387317_150384634_150381949_150379262_150376573_150373882_150371190_150368495_150365799_150363101_150360401_150357700_150354996_150352291_150349583_150346874_150344163_150341450_150338736_150336019_150333301_150330581_150327859_150325135_150322409_150319682_150316952_150314221_150311488_150308753_150306016_150303278_150300537_150297795_150295051_150292305_150289557_150286807_150284056_150281302_150278547_150275790_150273031_150270270_150267508_150264743_150261977_150259209_150256439_150253667_150250894_150248118_150245341_150242562_150239781_150236998_150234213_150231427_150228638_150225848_150223056_150220262_150217467_150214669_150211870_150209068_150206265_150203460_150200654_150197845_150195035_150192222_150189408_150186592_150183775_150180955_150178133_150175310_150172485_150169658_150166829_150163999_150161166_150158332_150155496_150152657_150149818_150146976_150144132_150141287_150138440_150135591_150132740_150129887_150127033_150124176_150121318_150118458_150115596_150112732_150109867_150106999_150104130_150101259_150098386_150095511_150092635_150089756_150086876_150083994_150081110_150078224_150075337_150072447_150069556_150066663_150063768_150060871_150057973,
  150055072_150052170_150049266_150046360_150043452_150040543_150037631_150034718_150031803_150028886_150025967_150023046_150020124_150017200_150014274_150011346_150008416_150005484_150002551_149999616_149996679_149993740_149990799_149987856_149984912_149981966_149979017_149976068_149973116_149970162_149967207_149964250_149961290_149958330_149955367_149952402_149949436_149946468_149943498_149940526_149937552_149934576_149931599_149928620_149925639_149922656_149919671_149916685_149913696_149910706_149907714_149904720_149901725_149898727_149895728_149892727_149889724_149886719_149883712_149880704_149877693_149874681_149871667_149868651_149865634_149862614_149859593_149856570_149853545_149850518_149847490_149844459_149841427_149838393_149835357_149832320_149829280_149826239_149823196_149820151_149817104_149814055_149811005_149807952_149804898_149801842_149798784_149795725_149792663_149789600_149786535_149783468_149780399_149777329_149774256_149771182_149768106_149765028_149761949_149758867_149755784_149752699_149749612_149746523_149743432_149740340_149737246_149734150_149731052_149727952_149724850_149721747_149718642_149715535_149712426_149709315_149706203_149703088_149699972_149696854_149693735_149690613_149687490_149684364_149681237_149678109_149674978_149671845_149668711_149665575_149662437_149659297_149656155_149653012_149649867_149646720_149643571_149640420_149637268_149634113_149630957_149627799_149624639_149621478_149618314_149615149_149611982_149608813_149605642_149602470_149599295_149596119_149592941_149589761_149586580_149583396_149580211_149577024_149573835_149570645_149567452_149564258_149561062_149557864_149554664_149551462_149548259_149545054_149541847_149538638_149535427_149532214_149529000_149525784_149522566_149519346_149516125_149512901_149509676_149506449_149503220_149499990_149496757_149493523_149490287_149487049_149483809_149480568_149477325_149474079_149470832_149467584_149464333_149461081_149457826_149454570_149451313_149448053_149444792_149441528_149438263_149434996_149431728_149428457_149425185_149421911_149418635_149415357_149412077_149408796_149405513_149402228_149398941_149395652_149392362_149389070_149385776_149382480_149379182_149375883_149372581_149369278_149365973_149362667_149359358_149356048_149352736_149349422_149346106_149342788_149339469_149336148_149332825_149329500_149326173_149322845_149319515_149316183_149312849_149309513_149306176_149302836_149299495_149296153_149292808_149289461_149286113_149282763_149279411_149276057_149272702_149269345_149265985_149262624_149259262_149255897,
  149252531_149249163_149245793_149242421_149239047_149235672_149232295_149228916_149225535_149222152_149218768_149215382_149211994_149208604_149205213_149201819_149198424_149195027_149191628_149188227_149184825_149181421_149178015_149174607_149171197_149167786_149164373_149160958_149157541_149154122_149150702_149147279_149143855_149140430_149137002_149133572_149130141_149126708_149123273_149119837_149116398_149112958_149109516_149106072_149102626_149099179_149095730_149092279_149088826_149085371_149081915_149078457_149074997_149071535_149068071_149064606_149061138_149057669_149054199_149050726_149047252_149043775_149040297_149036817_149033336_149029852_149026367_149022880_149019391_149015901_149012408_149008914_149005418_149001921_148998421_148994920_148991416_148987911_148984405_148980896_148977386_148973874_148970360_148966844_148963327_148959807_148956286_148952763_148949238_148945712_148942184_148938654_148935122_148931588_148928053_148924515_148920976_148917436_148913893_148910348_148906802_148903254_148899704_148896153_148892599_148889044_148885487_148881929_148878368_148874806_148871242_148867676_148864108_148860538_148856967_148853394_148849819_148846242_148842664_148839084_148835502_148831918_148828332_148824745_148821156_148817565_148813972_148810377_148806781_148803183_148799583_148795981_148792378_148788772_148785165_148781557_148777946_148774333_148770719_148767103_148763485_148759866_148756244_148752621_148748996_148745370_148741741_148738111_148734479_148730845_148727209_148723572_148719932_148716291_148712649_148709004_148705358_148701709_148698059_148694408_148690754_148687099_148683442_148679783_148676122_148672460_148668796_148665130_148661462_148657792_148654121_148650448_148646773_148643096_148639418_148635737_148632055_148628371_148624686_148620998_148617309_148613618_148609926_148606231_148602535_148598837_148595137_148591435_148587732_148584026_148580319_148576611_148572900_148569188_148565474_148561758_148558040_148554321_148550599_148546876_148543152_148539425_148535697_148531967_148528235_148524501_148520766_148517028_148513289_148509549_148505806_148502062_148498315_148494568_148490818_148487066_148483313_148479558_148475801_148472043_148468282_148464520_148460756_148456991_148453223_148449454_148445683_148441910_148438136_148434360_148430581_148426802_148423020_148419236_148415451_148411664_148407876_148404085_148400293_148396499_148392703_148388905_148385106_148381305_148377502_148373697_148369891_148366082_148362272_148358460_148354647_148350832_148347014_148343196_148339375_148335552,
  148331728_148327902_148324075_148320245_148316414_148312581_148308746_148304909_148301071_148297231_148293389_148289545_148285700_148281853_148278004_148274153_148270300_148266446_148262590_148258732_148254872_148251011_148247148_148243283_148239416_148235548_148231678_148227806_148223932_148220057_148216179_148212300_148208419_148204537_148200652_148196766_148192879_148188989_148185097_148181204_148177309_148173413_148169514_148165614_148161712_148157808_148153903_148149995_148146086_148142175_148138263_148134348_148130432_148126514_148122595_148118673_148114750_148110825_148106899_148102970_148099040_148095108_148091174_148087239_148083301_148079362_148075422_148071479_148067535_148063589_148059641_148055691_148051740_148047787_148043832_148039875_148035917_148031957_148027995_148024031_148020065_148016098_148012129_148008159_148004186_148000212_147996236_147992258_147988278_147984297_147980314_147976329_147972343_147968354_147964364_147960373_147956379_147952384_147948386_147944388_147940387_147936385_147932380_147928375_147924367_147920357_147916346_147912333_147908319_147904302_147900284_147896264_147892242_147888219_147884194_147880167_147876138_147872108_147868075_147864041_147860006_147855968_147851929_147847888_147843845_147839801_147835754_147831706_147827657_147823605_147819552_147815497_147811440_147807382_147803321_147799259_147795195_147791130_147787063_147782994_147778923_147774850_147770776_147766700_147762622_147758543_147754461_147750378_147746293_147742207_147738119_147734029_147729937_147725843_147721748_147717651_147713552_147709452_147705349_147701245_147697140_147693032_147688923_147684812_147680699_147676584_147672468_147668350_147664230_147660109_147655986_147651861_147647734_147643605_147639475_147635343_147631209_147627074_147622937_147618798_147614657_147610515_147606370_147602224_147598077_147593927_147589776_147585623_147581468_147577312_147573154_147568994_147564832_147560669_147556504_147552337_147548168_147543998_147539826_147535652_147531476_147527299_147523120_147518939_147514757_147510572_147506386_147502199_147498009_147493818_147489625_147485430_147481233_147477035_147472835_147468634_147464430_147460225_147456018_147451809_147447599_147443387_147439173_147434957_147430740_147426521_147422300_147418077_147413853_147409627_147405399_147401170_147396939_147392706_147388471_147384234_147379996_147375756_147371515_147367271_147363026_147358779_147354530_147350280_147346028_147341774_147337519_147333261_147329002_147324741_147320479_147316215_147311949_147307681_147303412_147299140,
  147294868_147290593_147286317_147282038_147277759_147273477_147269194_147264909_147260622_147256333_147252043_147247751_147243457_147239162_147234865_147230566_147226265_147221963_147217659_147213353_147209046_147204736_147200425_147196113_147191798_147187482_147183164_147178844_147174523_147170200_147165875_147161548_147157220_147152890_147148558_147144225_147139890_147135553_147131214_147126874_147122531_147118188_147113842_147109495_147105146_147100795_147096442_147092088_147087732_147083375_147079015_147074654_147070291_147065927_147061560_147057192_147052823_147048451_147044078_147039703_147035326_147030948_147026568_147022186_147017803_147013417_147009030_147004642_147000251_146995859_146991465_146987070_146982672_146978273_146973873_146969470_146965066_146960660_146956252_146951843_146947432_146943019_146938605_146934188_146929770_146925351_146920929_146916506_146912081_146907655_146903226_146898796_146894365_146889931_146885496_146881059_146876621_146872180_146867738_146863295_146858849_146854402_146849953_146845502_146841050_146836596_146832140_146827683_146823223_146818763_146814300_146809836_146805369_146800902_146796432_146791961_146787488_146783013_146778537_146774059_146769579_146765098_146760614_146756129_146751643_146747154_146742664_146738173_146733679_146729184_146724687_146720188_146715688_146711186_146706682_146702177_146697669_146693161_146688650_146684138_146679624_146675108_146670590_146666071_146661550_146657028_146652503_146647977_146643450_146638920_146634389_146629856_146625322_146620785_146616247_146611708_146607166_146602623_146598078_146593532_146588984_146584434_146579882_146575329_146570773_146566217_146561658_146557098_146552536_146547973_146543407_146538840_146534272_146529701_146525129_146520555_146515980_146511402_146506823_146502243_146497660_146493076_146488491_146483903_146479314_146474723_146470130_146465536_146460940_146456342_146451743_146447142_146442539_146437935_146433328_146428721_146424111_146419500_146414887_146410272_146405656_146401037_146396418_146391796_146387173_146382548_146377921_146373293_146368663_146364031_146359398_146354763_146350126_146345487_146340847_146336205_146331562_146326916_146322269_146317621_146312970_146308318_146303664_146299009_146294352_146289693_146285032_146280370_146275706_146271040_146266373_146261704_146257033_146252361_146247686_146243011_146238333_146233654_146228973_146224290_146219606_146214920_146210232_146205543_146200852_146196159_146191464_146186768_146182070_146177371_146172669_146167967_146163262_146158556_146153848_146149138,
  146144426_146139713_146134998_146130282_146125564_146120844_146116122_146111399_146106674_146101948_146097219_146092489_146087758_146083024_146078289_146073552_146068814_146064074_146059332_146054588_146049843_146045096_146040348_146035597_146030845_146026092_146021336_146016579_146011821_146007060_146002298_145997534_145992769_145988002_145983233_145978463_145973690_145968916_145964141_145959364_145954585_145949804_145945022_145940238_145935452_145930665_145925876_145921085_145916293_145911498_145906703_145901905_145897106_145892305_145887503_145882699_145877893_145873085_145868276_145863465_145858652_145853838_145849022_145844204_145839385_145834564_145829741_145824917_145820091_145815263_145810434_145805603_145800770_145795936_145791100_145786262_145781422_145776581_145771738_145766894_145762048_145757200_145752350_145747499_145742646_145737791_145732935_145728077_145723218_145718356_145713493_145708629_145703762_145698895_145694025_145689154_145684281_145679406_145674529_145669651_145664772_145659890_145655007_145650123_145645236_145640348_145635458_145630567_145625674_145620779_145615883_145610984_145606085_145601183_145596280_145591375_145586469_145581561_145576651_145571739_145566826_145561911_145556995_145552077_145547157_145542235_145537312_145532387_145527461_145522533_145517603_145512671_145507738_145502803_145497867_145492929_145487989_145483047_145478104_145473159_145468213_145463264_145458315_145453363_145448410_145443455_145438498_145433540_145428580_145423619_145418656_145413691_145408724_145403756_145398786_145393815_145388842_145383867_145378890_145373912_145368932_145363951_145358967_145353983_145348996_145344008_145339018_145334027_145329034_145324039_145319042_145314044_145309044_145304043_145299040_145294035_145289029_145284021_145279011_145273999_145268986_145263972_145258955_145253937_145248918_145243896_145238873_145233848_145228822_145223794_145218764_145213733_145208700_145203666_145198629_145193591_145188552_145183510_145178468_145173423_145168377_145163329_145158279_145153228_145148175_145143121_145138065_145133007_145127947_145122886_145117823_145112759_145107693_145102625_145097556_145092485_145087412_145082338_145077262_145072184_145067105_145062024_145056941_145051857_145046771_145041683_145036594_145031503_145026411_145021317_145016221_145011123_145006024_145000923_144995821_144990717_144985611_144980504_144975395_144970284_144965172_144960058_144954942_144949825_144944706_144939585_144934463_144929339_144924214_144919087_144913958_144908827_144903695_144898562_144893426_144888289,
  144883150_144878010_144872868_144867725_144862579_144857432_144852284_144847134_144841982_144836828_144831673_144826516_144821358_144816198_144811036_144805873_144800708_144795541_144790373_144785203_144780032_144774858_144769683_144764507_144759329_144754149_144748968_144743785_144738600_144733414_144728226_144723036_144717845_144712652_144707457_144702261_144697063_144691864_144686663_144681460_144676256_144671050_144665842_144660633_144655422_144650209_144644995_144639779_144634562_144629343_144624122_144618900_144613676_144608450_144603223_144597994_144592763_144587531_144582297_144577062_144571825_144566586_144561346_144556104_144550860_144545615_144540368_144535120_144529869_144524618_144519364_144514109_144508852_144503594_144498334_144493073_144487809_144482544_144477278_144472010_144466740_144461469_144456196_144450921_144445645_144440367_144435088_144429806_144424524_144419239_144413953_144408665_144403376_144398085_144392793_144387499_144382203_144376905_144371606_144366306_144361003_144355699_144350394_144345087_144339778_144334467_144329155_144323842_144318526_144313209_144307891_144302571_144297249_144291925_144286600_144281274_144275945_144270615_144265284_144259951_144254616_144249279_144243941_144238602_144233260_144227917_144222573_144217227_144211879_144206529_144201178_144195826_144190471_144185116_144179758_144174399_144169038_144163676_144158312_144152946_144147579_144142210_144136840_144131468_144126094_144120719_144115342_144109963_144104583_144099201_144093818_144088433_144083046_144077658_144072268_144066876_144061483_144056089_144050692_144045294_144039895_144034494_144029091_144023686_144018280_144012873_144007463_144002053_143996640_143991226_143985810_143980393_143974974_143969553_143964131_143958707_143953282_143947855_143942426_143936996_143931564_143926131_143920696_143915259_143909821_143904381_143898940_143893497_143888052_143882605_143877158_143871708_143866257_143860804_143855350_143849894_143844436_143838977_143833516_143828054_143822590_143817124_143811657_143806188_143800718_143795246_143789772_143784297_143778820_143773341_143767861_143762380_143756896_143751411_143745925_143740437_143734947_143729456_143723963_143718468_143712972_143707474_143701975_143696474_143690972_143685468_143679962_143674454_143668945_143663435_143657923_143652409_143646894_143641377_143635858_143630338_143624816_143619293_143613768_143608241_143602713_143597184_143591652_143586119_143580585_143575049_143569511_143563972_143558431_143552888_143547344_143541798_143536251_143530702_143525151_143519599,
  143514046_143508490_143502933_143497375_143491815_143486253_143480690_143475125_143469559_143463990_143458421_143452850_143447277_143441702_143436126_143430549_143424969_143419389_143413806_143408222_143402637_143397049_143391461_143385870_143380278_143374685_143369090_143363493_143357895_143352295_143346693_143341090_143335485_143329879_143324271_143318662_143313051_143307438_143301824_143296208_143290591_143284972_143279351_143273729_143268105_143262480_143256853_143251225_143245594_143239963_143234330_143228695_143223058_143217420_143211781_143206139_143200497_143194852_143189206_143183559_143177910_143172259_143166607_143160953_143155298_143149641_143143982_143138322_143132660_143126997_143121332_143115665_143109997_143104327_143098656_143092983_143087309_143081633_143075955_143070276_143064595_143058913_143053229_143047544_143041857_143036168_143030478_143024786_143019093_143013398_143007701_143002003_142996303_142990602_142984899_142979195_142973489_142967781_142962072_142956361_142950649_142944935_142939220_142933503_142927784_142922064_142916342_142910619_142904894_142899168_142893439_142887710_142881979_142876246_142870512_142864776_142859038_142853299_142847559_142841816_142836073_142830327_142824580_142818832_142813082_142807330_142801577_142795822_142790066_142784308_142778549_142772787_142767025_142761261_142755495_142749728_142743959_142738188_142732416_142726643_142720868_142715091_142709313_142703533_142697751_142691968_142686184_142680398_142674610_142668821_142663030_142657237_142651443_142645648_142639851_142634052_142628252_142622450_142616647_142610842_142605036_142599228_142593418_142587607_142581794_142575980_142570164_142564347_142558528_142552707_142546885_142541061_142535236_142529410_142523581_142517751_142511920_142506087_142500252_142494416_142488579_142482739_142476899_142471056_142465212_142459367_142453520_142447671_142441821_142435969_142430116_142424261_142418405_142412547_142406687_142400826_142394964_142389100_142383234_142377367_142371498_142365628_142359756_142353882_142348007_142342131_142336252_142330373_142324492_142318609_142312724_142306838_142300951_142295062_142289171_142283279_142277386_142271491_142265594_142259695_142253796_142247894_142241991_142236087_142230181_142224273_142218364_142212453_142206541_142200627_142194712_142188795_142182876_142176956_142171035_142165112_142159187_142153261_142147333_142141404_142135473_142129541_142123607_142117671_142111734_142105796_142099856_142093914_142087971_142082026_142076080_142070132_142064183_142058232_142052279_142046325,
  142040370_142034413_142028454_142022494_142016532_142010569_142004604_141998638_141992670_141986701_141980730_141974757_141968783_141962808_141956830_141950852_141944872_141938890_141932907_141926922_141920935_141914948_141908958_141902967_141896975_141890981_141884985_141878988_141872989_141866989_141860987_141854984_141848979_141842973_141836965_141830956_141824945_141818932_141812918_141806903_141800886_141794867_141788847_141782825_141776802_141770778_141764751_141758723_141752694_141746663_141740631_141734597_141728562_141722525_141716486_141710446_141704404_141698361_141692317_141686270_141680223_141674174_141668123_141662070_141656017_141649961_141643904_141637846_141631786_141625725_141619662_141613597_141607531_141601464_141595394_141589324_141583252_141577178_141571103_141565026_141558948_141552868_141546787_141540704_141534620_141528534_141522446_141516357_141510267_141504175_141498082_141491987_141485890_141479792_141473692_141467591_141461489_141455384_141449279_141443172_141437063_141430953_141424841_141418728_141412613_141406497_141400379_141394259_141388139_141382016_141375892_141369767_141363640_141357511_141351381_141345250_141339117_141332982_141326846_141320709_141314570_141308429_141302287_141296143_141289998_141283852_141277703_141271554_141265403_141259250_141253096_141246940_141240783_141234624_141228464_141222302_141216138_141209974_141203807_141197639_141191470_141185299_141179127_141172953_141166777_141160601_141154422_141148242_141142061_141135878_141129693_141123507_141117320_141111131_141104940_141098748_141092555_141086360_141080163_141073965_141067766_141061565_141055362_141049158_141042952_141036745_141030537_141024327_141018115_141011902_141005687_140999471_140993253_140987034_140980814_140974592_140968368_140962143_140955916_140949688_140943458_140937227_140930994_140924760_140918525_140912287_140906049_140899809_140893567_140887324_140881079_140874833_140868585_140862336_140856085_140849833_140843580_140837324_140831068_140824810_140818550_140812289_140806026_140799762_140793496_140787229_140780960_140774690_140768419_140762145_140755871_140749595_140743317_140737038_140730757_140724475_140718192_140711906_140705620_140699332_140693042_140686751_140680458_140674164_140667869_140661572_140655273_140648973_140642672_140636369_140630064_140623758_140617451_140611142_140604831_140598519_140592206_140585891_140579574_140573256_140566937_140560616_140554294_140547970_140541644_140535317_140528989_140522659_140516328_140509995_140503661_140497325_140490988_140484649_140478309_140471967,
  140465624_140459279_140452933_140446585_140440236_140433885_140427533_140421180_140414825_140408468_140402110_140395750_140389389_140383027_140376663_140370297_140363930_140357562_140351192_140344821_140338448_140332073_140325697_140319320_140312941_140306561_140300179_140293796_140287411_140281025_140274637_140268248_140261857_140255465_140249072_140242677_140236280_140229882_140223483_140217082_140210679_140204275_140197870_140191463_140185055_140178645_140172233_140165821_140159406_140152991_140146573_140140155_140133734_140127313_140120890_140114465_140108039_140101612_140095183_140088752_140082320_140075887_140069452_140063015_140056578_140050138_140043698_140037255_140030812_140024366_140017920_140011472_140005022_139998571_139992118_139985664_139979209_139972752_139966294_139959834_139953372_139946910_139940445_139933980_139927512_139921044_139914574_139908102_139901629_139895154_139888678_139882201_139875722_139869242_139862760_139856277_139849792_139843305_139836818_139830329_139823838_139817346_139810852_139804357_139797861_139791363_139784863_139778363_139771860_139765357_139758851_139752345_139745836_139739327_139732816_139726303_139719789_139713274_139706757_139700238_139693719_139687197_139680675_139674150_139667625_139661098_139654569_139648039_139641507_139634975_139628440_139621904_139615367_139608828_139602288_139595746_139589203_139582659_139576113_139569565_139563016_139556466_139549914_139543361_139536806_139530250_139523692_139517133_139510572_139504010_139497447_139490882_139484316_139477748_139471179_139464608_139458036_139451462_139444887_139438310_139431733_139425153_139418572_139411990_139405406_139398821_139392234_139385646_139379057_139372466_139365873_139359280_139352684_139346087_139339489_139332890_139326288_139319686_139313082_139306477_139299870_139293261_139286652_139280040_139273428_139266814_139260198_139253581_139246963_139240343_139233722_139227099_139220475_139213849_139207222_139200594_139193964_139187332_139180699_139174065_139167429_139160792_139154154_139147514_139140872_139134229_139127585_139120939_139114292_139107644_139100993_139094342_139087689_139081035_139074379_139067722_139061063_139054403_139047741_139041078_139034414_139027748_139021081_139014412_139007742_139001070_138994397_138987723_138981047_138974370_138967691_138961011_138954329_138947646_138940961_138934276_138927588_138920899_138914209_138907518_138900825_138894130_138887434_138880737_138874038_138867338_138860636_138853933_138847229_138840523_138833816_138827107_138820397_138813685_138806972_138800257,
  138793542_138786824_138780106_138773385_138766664_138759941_138753216_138746491_138739763_138733035_138726304_138719573_138712840_138706105_138699370_138692632_138685894_138679154_138672412_138665669_138658925_138652179_138645432_138638683_138631933_138625182_138618429_138611675_138604919_138598162_138591403_138584643_138577882_138571119_138564355_138557590_138550822_138544054_138537284_138530513_138523740_138516966_138510191_138503414_138496635_138489855_138483074_138476292_138469508_138462722_138455935_138449147_138442357_138435566_138428774_138421980_138415185_138408388_138401590_138394790_138387989_138381187_138374383_138367578_138360771_138353963_138347154_138340343_138333531_138326717_138319902_138313086_138306268_138299448_138292628_138285806_138278982_138272157_138265331_138258503_138251674_138244844_138238012_138231178_138224344_138217507_138210670_138203831_138196991_138190149_138183306_138176461_138169615_138162768_138155919_138149069_138142217_138135364_138128510_138121654_138114797_138107938_138101078_138094217_138087354_138080490_138073624_138066757_138059889_138053019_138046148_138039275_138032401_138025526_138018649_138011771_138004891_137998010_137991128_137984244_137977359_137970473_137963585_137956695_137949805_137942912_137936019_137929124_137922228_137915330_137908431_137901530_137894629_137887725_137880821_137873914_137867007_137860098_137853188_137846276_137839363_137832449_137825533_137818616_137811697_137804777_137797856_137790933_137784009_137777084_137770157_137763228_137756299_137749368_137742435_137735501_137728566_137721629_137714691_137707752_137700811_137693869_137686925_137679980_137673034_137666086_137659137_137652187_137645235_137638282_137631327_137624371_137617414_137610455_137603495_137596533_137589570_137582606_137575640_137568673_137561705_137554735_137547764_137540791_137533817_137526842_137519865_137512887_137505907_137498926_137491944_137484961_137477976_137470989_137464001_137457012_137450022_137443030_137436037_137429042_137422046_137415049_137408050_137401050_137394048_137387045_137380041_137373035_137366028_137359020_137352010_137344999_137337986_137330973_137323957_137316941_137309923_137302903_137295883_137288860_137281837_137274812_137267786_137260758_137253729_137246699_137239667_137232634_137225600_137218564_137211527_137204488_137197448_137190407_137183364_137176320_137169275_137162228_137155180_137148131_137141080_137134028_137126974_137119919_137112863_137105805_137098746_137091686_137084624_137077561_137070496_137063430_137056363_137049294_137042225_137035153,
  137028081_137021007_137013931_137006854_136999776_136992697_136985616_136978534_136971450_136964365_136957279_136950191_136943102_136936012_136928920_136921827_136914733_136907637_136900540_136893441_136886342_136879240_136872138_136865034_136857929_136850822_136843714_136836605_136829494_136822382_136815269_136808154_136801038_136793920_136786801_136779681_136772560_136765437_136758313_136751187_136744060_136736932_136729802_136722671_136715539_136708405_136701270_136694134_136686996_136679857_136672716_136665575_136658432_136651287_136644141_136636994_136629846_136622696_136615544_136608392_136601238_136594083_136586926_136579768_136572609_136565448_136558286_136551123_136543958_136536792_136529625_136522456_136515286_136508115_136500942_136493768_136486593_136479416_136472238_136465058_136457878_136450695_136443512_136436327_136429141_136421954_136414765_136407575_136400383_136393190_136385996_136378801_136371604_136364405_136357206_136350005_136342803_136335599_136328394_136321188_136313981_136306772_136299562_136292350_136285137_136277923_136270707_136263490_136256272_136249053_136241832_136234610_136227386_136220161_136212935_136205707_136198478_136191248_136184017_136176784_136169550_136162314_136155077_136147839_136140599_136133358_136126116_136118873_136111628_136104382_136097134_136089885_136082635_136075384_136068131_136060877_136053621_136046364_136039106_136031847_136024586_136017324_136010061_136002796_135995530_135988262_135980994_135973724_135966452_135959180_135951905_135944630_135937353_135930075_135922796_135915516_135908234_135900950_135893666_135886380_135879093_135871804_135864514_135857223_135849930_135842637_135835341_135828045_135820747_135813448_135806148_135798846_135791543_135784238_135776933_135769626_135762317_135755008_135747697_135740385_135733071_135725756_135718440_135711122_135703803_135696483_135689162_135681839_135674515_135667190_135659863_135652535_135645205_135637875_135630543_135623209_135615875_135608539_135601202_135593863_135586523_135579182_135571840_135564496_135557151_135549805_135542457_135535108_135527758_135520406_135513053_135505699_135498343_135490986_135483628_135476269_135468908_135461546_135454183_135446818_135439452_135432085_135424716_135417346_135409975_135402603_135395229_135387854_135380477_135373100_135365720_135358340_135350959_135343576_135336191_135328806_135321419_135314031_135306642_135299251_135291859_135284466_135277071_135269675_135262278_135254879_135247479_135240078_135232676_135225272_135217867_135210461_135203053_135195645_135188234_135180823,
  135173410_135165996_135158581_135151164_135143746_135136327_135128906_135121484_135114061_135106637_135099211_135091784_135084356_135076926_135069495_135062063_135054630_135047195_135039759_135032322_135024883_135017443_135010002_135002560_134995116_134987671_134980224_134972777_134965328_134957878_134950426_134942973_134935519_134928064_134920607_134913149_134905690_134898230_134890768_134883305_134875840_134868375_134860908_134853440_134845970_134838499_134831027_134823554_134816079_134808604_134801126_134793648_134786168_134778687_134771205_134763721_134756236_134748750_134741263_134733774_134726284_134718793_134711300_134703807_134696311_134688815_134681317_134673818_134666318_134658817_134651314_134643810_134636305_134628798_134621290_134613781_134606271_134598759_134591246_134583732_134576216_134568700_134561181_134553662_134546142_134538620_134531097_134523572_134516046_134508519_134500991_134493462_134485931_134478399_134470866_134463331_134455795_134448258_134440720_134433180_134425639_134418097_134410554_134403009_134395463_134387916_134380367_134372817_134365266_134357714_134350160_134342605_134335049_134327492_134319933_134312373_134304812_134297250_134289686_134282121_134274555_134266987_134259419_134251849_134244277_134236705_134229131_134221556_134213980_134206402_134198823_134191243_134183662_134176079_134168495_134160910_134153324_134145736_134138147_134130557_134122965_134115373_134107779_134100184_134092587_134084990_134077391_134069790_134062189_134054586_134046982_134039377_134031770_134024163_134016554_134008943_134001332_133993719_133986105_133978490_133970873_133963256_133955637_133948016_133940395_133932772_133925148_133917523_133909896_133902268_133894639_133887009_133879378_133871745_133864111_133856476_133848839_133841201_133833562_133825922_133818281_133810638_133802994_133795349_133787702_133780054_133772405_133764755_133757104_133749451_133741797_133734142_133726485_133718828_133711169_133703509_133695847_133688185_133680521_133672856_133665189_133657522_133649853_133642183_133634511_133626839_133619165_133611490_133603814_133596136_133588457_133580777_133573096_133565414_133557730_133550045_133542359_133534671_133526983_133519293_133511602_133503909_133496216_133488521_133480825_133473128_133465429_133457729_133450028_133442326_133434623_133426918_133419212_133411505_133403796_133396087_133388376_133380664_133372951_133365236_133357520_133349803_133342085_133334365_133326645_133318923_133311200_133303475_133295750_133288023_133280295_133272566_133264835_133257103_133249370_133241636,
  133233901_133226164_133218426_133210687_133202947_133195205_133187462_133179718_133171973_133164227_133156479_133148730_133140980_133133229_133125476_133117723_133109968_133102211_133094454_133086695_133078935_133071174_133063412_133055648_133047884_133040118_133032351_133024582_133016813_133009042_133001270_132993496_132985722_132977946_132970169_132962391_132954612_132946831_132939049_132931266_132923482_132915697_132907910_132900122_132892333_132884543_132876751_132868959_132861165_132853370_132845573_132837776_132829977_132822177_132814376_132806574_132798770_132790965_132783159_132775352_132767543_132759734_132751923_132744111_132736298_132728483_132720667_132712851_132705032_132697213_132689393_132681571_132673748_132665924_132658099_132650272_132642444_132634615_132626785_132618954_132611121_132603288_132595453_132587616_132579779_132571940_132564101_132556260_132548418_132540574_132532730_132524884_132517037_132509189_132501339_132493489_132485637_132477784_132469930_132462075_132454218_132446360_132438501_132430641_132422780_132414917_132407053_132399189_132391322_132383455_132375587_132367717_132359846_132351974_132344101_132336226_132328350_132320473_132312595_132304716_132296836_132288954_132281071_132273187_132265302_132257416_132249528_132241639_132233749_132225858_132217966_132210072_132202177_132194282_132186384_132178486_132170587_132162686_132154784_132146881_132138977_132131071_132123165_132115257_132107348_132099438_132091527_132083614_132075700_132067785_132059869_132051952_132044034_132036114_132028193_132020271_132012348_132004424_131996498_131988571_131980644_131972714_131964784_131956853_131948920_131940986_131933051_131925115_131917178_131909239_131901300_131893359_131885417_131877474_131869529_131861584_131853637_131845689_131837740_131829790_131821838_131813886_131805932_131797977_131790021_131782063_131774105_131766145_131758184_131750222_131742259_131734295_131726329_131718363_131710395_131702426_131694455_131686484_131678512_131670538_131662563_131654587_131646610_131638631_131630652_131622671_131614689_131606706_131598722_131590736_131582750_131574762_131566773_131558783_131550792_131542799_131534806_131526811_131518815_131510818_131502820_131494821_131486820_131478818_131470816_131462812_131454806_131446800_131438793_131430784_131422774_131414763_131406751_131398738_131390723_131382707_131374691_131366673_131358654_131350633_131342612_131334589_131326566_131318541_131310515_131302488_131294459_131286430_131278399_131270367_131262334_131254300_131246265_131238228_131230191_131222152,
  131214112_131206071_131198029_131189985_131181941_131173895_131165848_131157800_131149751_131141701_131133650_131125597_131117543_131109488_131101432_131093375_131085317_131077257_131069197_131061135_131053072_131045008_131036943_131028877_131020809_131012740_131004671_130996600_130988528_130980454_130972380_130964305_130956228_130948150_130940071_130931991_130923910_130915827_130907744_130899659_130891573_130883487_130875398_130867309_130859219_130851127_130843035_130834941_130826846_130818750_130810653_130802554_130794455_130786354_130778253_130770150_130762046_130753940_130745834_130737727_130729618_130721508_130713398_130705286_130697173_130689058_130680943_130672826_130664709_130656590_130648470_130640349_130632227_130624104_130615979_130607854_130599727_130591599_130583470_130575340_130567209_130559076_130550943_130542808_130534672_130526536_130518398_130510258_130502118_130493977_130485834_130477691_130469546_130461400_130453253_130445105_130436956_130428805_130420654_130412501_130404347_130396192_130388036_130379879_130371721_130363562_130355401_130347239_130339077_130330913_130322748_130314582_130306414_130298246_130290077_130281906_130273734_130265562_130257388_130249212_130241036_130232859_130224681_130216501_130208320_130200139_130191956_130183772_130175587_130167400_130159213_130151024_130142835_130134644_130126452_130118259_130110065_130101870_130093674_130085477_130077278_130069078_130060878_130052676_130044473_130036269_130028064_130019857_130011650_130003442_129995232_129987021_129978809_129970596_129962382_129954167_129945951_129937734_129929515_129921296_129913075_129904853_129896630_129888406_129880181_129871955_129863728_129855499_129847270_129839039_129830807_129822574_129814340_129806105_129797869_129789632_129781394_129773154_129764914_129756672_129748429_129740185_129731940_129723694_129715447_129707199_129698949_129690699_129682447_129674195_129665941_129657686_129649430_129641173_129632915_129624656_129616395_129608134_129599872_129591608_129583343_129575077_129566810_129558542_129550273_129542003_129533732_129525460_129517186_129508912_129500636_129492359_129484081_129475802_129467522_129459241_129450959_129442676_129434391_129426106_129417819_129409532_129401243_129392953_129384662_129376370_129368077_129359783_129351488_129343191_129334894_129326595_129318296_129309995_129301693_129293391_129285087_129276782_129268475_129260168_129251860_129243551_129235240_129226929_129218616_129210302_129201988_129193672_129185355_129177037_129168718_129160398_129152076_129143754_129135431_129127106,
  129118781_129110454_129102126_129093797_129085468_129077137_129068805_129060471_129052137_129043802_129035466_129027128_129018790_129010450_129002110_128993768_128985425_128977081_128968736_128960390_128952043_128943695_128935346_128926996_128918644_128910292_128901938_128893584_128885228_128876871_128868514_128860155_128851795_128843434_128835072_128826709_128818345_128809979_128801613_128793246_128784877_128776508_128768137_128759765_128751393_128743019_128734644_128726268_128717891_128709513_128701134_128692754_128684373_128675990_128667607_128659223_128650837_128642451_128634063_128625674_128617285_128608894_128600502_128592109_128583715_128575320_128566924_128558527_128550129_128541729_128533329_128524928_128516525_128508122_128499717_128491312_128482905_128474497_128466089_128457679_128449268_128440856_128432443_128424029_128415614_128407198_128398780_128390362_128381943_128373523_128365101_128356679_128348255_128339831_128331405_128322978_128314551_128306122_128297692_128289261_128280829_128272396_128263962_128255527_128247091_128238654_128230216_128221777_128213337_128204895_128196453_128188009_128179565_128171119_128162673_128154225_128145777_128137327_128128876_128120425_128111972_128103518_128095063_128086607_128078150_128069692_128061233_128052773_128044312_128035850_128027386_128018922_128010457_128001990_127993523_127985055_127976585_127968115_127959643_127951171_127942697_127934222_127925747_127917270_127908792_127900314_127891834_127883353_127874871_127866388_127857904_127849419_127840933_127832446_127823958_127815469_127806979_127798488_127789995_127781502_127773008_127764513_127756016_127747519_127739021_127730521_127722021_127713519_127705017_127696513_127688009_127679503_127670997_127662489_127653980_127645471_127636960_127628448_127619935_127611422_127602907_127594391_127585874_127577356_127568837_127560317_127551796_127543275_127534752_127526228_127517702_127509176_127500649_127492121_127483592_127475062_127466531_127457999_127449465_127440931_127432396_127423860_127415323_127406784_127398245_127389705_127381163_127372621_127364078_127355533_127346988_127338441_127329894_127321345_127312796_127304246_127295694_127287142_127278588_127270034_127261478_127252921_127244364_127235805_127227246_127218685_127210124_127201561_127192997_127184433_127175867_127167300_127158733_127150164_127141594_127133024_127124452_127115879_127107306_127098731_127090155_127081578_127073001_127064422_127055842_127047262_127038680_127030097_127021513_127012929_127004343_126995756_126987168_126978579_126969990_126961399,
  126952807_126944214_126935621_126927026_126918430_126909833_126901235_126892637_126884037_126875436_126866834_126858232_126849628_126841023_126832417_126823811_126815203_126806594_126797984_126789374_126780762_126772149_126763535_126754921_126746305_126737688_126729071_126720452_126711832_126703211_126694590_126685967_126677343_126668719_126660093_126651467_126642839_126634210_126625581_126616950_126608319_126599686_126591052_126582418_126573782_126565146_126556508_126547870_126539230_126530590_126521948_126513306_126504663_126496018_126487373_126478726_126470079_126461431_126452781_126444131_126435480_126426828_126418174_126409520_126400865_126392209_126383551_126374893_126366234_126357574_126348913_126340251_126331588_126322924_126314259_126305593_126296926_126288258_126279589_126270919_126262248_126253576_126244903_126236230_126227555_126218879_126210202_126201524_126192846_126184166_126175485_126166804_126158121_126149438_126140753_126132068_126123381_126114694_126106005_126097316_126088626_126079934_126071242_126062549_126053855_126045159_126036463_126027766_126019068_126010369_126001669_125992968_125984266_125975563_125966859_125958154_125949448_125940741_125932034_125923325_125914615_125905904_125897193_125888480_125879767_125871052_125862337_125853620_125844903_125836184_125827465_125818745_125810024_125801301_125792578_125783854_125775129_125766403_125757676_125748948_125740219_125731489_125722758_125714026_125705294_125696560_125687825_125679090_125670353_125661616_125652877_125644138_125635397_125626656_125617914_125609170_125600426_125591681_125582935_125574188_125565440_125556691_125547941_125539190_125530438_125521685_125512931_125504177_125495421_125486665_125477907_125469149_125460389_125451629_125442867_125434105_125425342_125416578_125407813_125399047_125390280_125381512_125372743_125363973_125355202_125346430_125337658_125328884_125320110_125311334_125302558_125293780_125285002_125276223_125267442_125258661_125249879_125241096_125232312_125223527_125214741_125205955_125197167_125188378_125179589_125170798_125162007_125153214_125144421_125135626_125126831_125118035_125109238_125100440_125091641_125082841_125074040_125065238_125056436_125047632_125038827_125030022_125021215_125012408_125003600_124994791_124985980_124977169_124968357_124959544_124950730_124941916_124933100_124924283_124915465_124906647_124897827_124889007_124880186_124871363_124862540_124853716_124844891_124836065_124827238_124818410_124809582_124800752_124791921_124783090_124774258_124765424_124756590_124747755_124738919_124730081,
  124721244_124712405_124703565_124694724_124685882_124677040_124668196_124659352_124650507_124641660_124632813_124623965_124615116_124606266_124597415_124588563_124579711_124570857_124562003_124553147_124544291_124535434_124526575_124517716_124508856_124499995_124491134_124482271_124473407_124464543_124455677_124446811_124437943_124429075_124420206_124411336_124402465_124393593_124384720_124375847_124366972_124358096_124349220_124340343_124331464_124322585_124313705_124304824_124295942_124287060_124278176_124269291_124260406_124251520_124242632_124233744_124224855_124215965_124207074_124198182_124189289_124180396_124171501_124162606_124153709_124144812_124135914_124127015_124118115_124109214_124100313_124091410_124082506_124073602_124064697_124055790_124046883_124037975_124029066_124020156_124011246_124002334_123993422_123984508_123975594_123966679_123957762_123948845_123939928_123931009_123922089_123913169_123904247_123895325_123886401_123877477_123868552_123859626_123850700_123841772_123832843_123823914_123814983_123806052_123797120_123788187_123779253_123770318_123761382_123752446_123743508_123734570_123725631_123716691_123707750_123698808_123689865_123680921_123671977_123663031_123654085_123645137_123636189_123627240_123618290_123609340_123600388_123591436_123582482_123573528_123564573_123555617_123546660_123537702_123528743_123519784_123510823_123501862_123492900_123483937_123474973_123466008_123457042_123448075_123439108_123430140_123421170_123412200_123403229_123394257_123385285_123376311_123367337_123358361_123349385_123340408_123331430_123322451_123313471_123304491_123295509_123286527_123277544_123268560_123259575_123250589_123241602_123232615_123223626_123214637_123205647_123196656_123187664_123178671_123169678_123160683_123151688_123142691_123133694_123124696_123115698_123106698_123097697_123088696_123079694_123070691_123061686_123052682_123043676_123034669_123025662_123016654_123007644_122998634_122989623_122980612_122971599_122962585_122953571_122944556_122935540_122926523_122917505_122908487_122899467_122890447_122881425_122872403_122863380_122854357_122845332_122836307_122827280_122818253_122809225_122800196_122791166_122782136_122773104_122764072_122755039_122746005_122736970_122727934_122718897_122709860_122700822_122691783_122682743_122673702_122664660_122655618_122646574_122637530_122628485_122619439_122610392_122601345_122592296_122583247_122574197_122565146_122556094_122547041_122537988_122528933_122519878_122510822_122501765_122492707_122483649_122474589_122465529_122456468_122447406_122438343,
  122429279_122420215_122411149_122402083_122393016_122383948_122374880_122365810_122356740_122347669_122338597_122329524_122320450_122311375_122302300_122293224_122284147_122275069_122265990_122256911_122247830_122238749_122229667_122220584_122211500_122202416_122193330_122184244_122175157_122166069_122156980_122147891_122138800_122129709_122120617_122111524_122102430_122093336_122084240_122075144_122066047_122056949_122047851_122038751_122029651_122020550_122011448_122002345_121993241_121984137_121975031_121965925_121956818_121947711_121938602_121929493_121920382_121911271_121902159_121893047_121883933_121874819_121865704_121856588_121847471_121838353_121829235_121820115_121810995_121801874_121792753_121783630_121774507_121765383_121756258_121747132_121738005_121728878_121719749_121710620_121701491_121692360_121683228_121674096_121664963_121655829_121646694_121637558_121628422_121619285_121610147_121601008_121591868_121582728_121573587_121564444_121555302_121546158_121537013_121527868_121518722_121509575_121500427_121491279_121482129_121472979_121463828_121454676_121445524_121436370_121427216_121418061_121408905_121399749_121390591_121381433_121372274_121363114_121353953_121344792_121335630_121326467_121317303_121308138_121298973_121289807_121280640_121271472_121262303_121253134_121243963_121234792_121225620_121216448_121207274_121198100_121188925_121179749_121170573_121161395_121152217_121143038_121133858_121124677_121115496_121106314_121097131_121087947_121078762_121069577_121060391_121051204_121042016_121032828_121023638_121014448_121005257_120996066_120986873_120977680_120968486_120959291_120950095_120940899_120931702_120922504_120913305_120904105_120894905_120885704_120876502_120867299_120858095_120848891_120839686_120830480_120821273_120812066_120802858_120793649_120784439_120775228_120766017_120756805_120747592_120738378_120729164_120719948_120710732_120701516_120692298_120683080_120673860_120664640_120655420_120646198_120636976_120627753_120618529_120609304_120600079_120590853_120581626_120572398_120563170_120553940_120544710_120535480_120526248_120517016_120507783_120498549_120489314_120480078_120470842_120461605_120452367_120443129_120433890_120424650_120415409_120406167_120396925_120387682_120378438_120369193_120359947_120350701_120341454_120332206_120322958_120313709_120304459_120295208_120285956_120276704_120267451_120258197_120248942_120239687_120230430_120221174_120211916_120202657_120193398_120184138_120174877_120165616_120156354_120147091_120137827_120128562_120119297_120110031_120100764_120091496,
  120082228_120072959_120063689_120054418_120045147_120035875_120026602_120017328_120008054_119998779_119989503_119980226_119970949_119961671_119952392_119943112_119933831_119924550_119915268_119905986_119896702_119887418_119878133_119868847_119859561_119850274_119840986_119831697_119822408_119813117_119803826_119794535_119785242_119775949_119766655_119757360_119748065_119738769_119729472_119720174_119710876_119701577_119692277_119682976_119673675_119664373_119655070_119645766_119636462_119627157_119617851_119608544_119599237_119589929_119580620_119571310_119562000_119552689_119543377_119534065_119524752_119515438_119506123_119496807_119487491_119478174_119468857_119459538_119450219_119440899_119431578_119422257_119412935_119403612_119394289_119384964_119375639_119366314_119356987_119347660_119338332_119329003_119319674_119310344_119301013_119291681_119282349_119273016_119263682_119254347_119245012_119235676_119226339_119217002_119207664_119198325_119188985_119179645_119170304_119160962_119151620_119142276_119132932_119123588_119114242_119104896_119095549_119086202_119076853_119067504_119058154_119048804_119039453_119030101_119020748_119011395_119002041_118992686_118983330_118973974_118964617_118955260_118945901_118936542_118927182_118917822_118908460_118899098_118889736_118880372_118871008_118861643_118852278_118842911_118833544_118824177_118814808_118805439_118796069_118786699_118777327_118767955_118758583_118749209_118739835_118730460_118721085_118711708_118702332_118692954_118683575_118674196_118664817_118655436_118646055_118636673_118627290_118617907_118608523_118599138_118589753_118580367_118570980_118561592_118552204_118542815_118533425_118524035_118514644_118505252_118495859_118486466_118477072_118467678_118458282_118448886_118439490_118430092_118420694_118411295_118401896_118392496_118383095_118373693_118364291_118354888_118345484_118336080_118326675_118317269_118307862_118298455_118289047_118279639_118270230_118260820_118251409_118241998_118232586_118223173_118213759_118204345_118194931_118185515_118176099_118166682_118157264_118147846_118138427_118129008_118119587_118110166_118100745_118091322_118081899_118072475_118063051_118053626_118044200_118034773_118025346_118015918_118006490_117997061_117987631_117978200_117968769_117959337_117949904_117940471_117931037_117921602_117912166_117902730_117893294_117883856_117874418_117864979_117855540_117846100_117836659_117827217_117817775_117808332_117798889_117789444_117779999_117770554_117761107_117751661_117742213_117732765_117723316_117713866_117704416_117694965,
  117685513_117676061_117666608_117657154_117647700_117638245_117628789_117619332_117609875_117600418_117590959_117581500_117572040_117562580_117553119_117543657_117534195_117524732_117515268_117505804_117496339_117486873_117477406_117467939_117458472_117449003_117439534_117430064_117420594_117411123_117401651_117392179_117382706_117373232_117363757_117354282_117344807_117335330_117325853_117316376_117306897_117297418_117287939_117278458_117268977_117259496_117250013_117240530_117231047_117221562_117212077_117202592_117193105_117183619_117174131_117164643_117155154_117145664_117136174_117126683_117117192_117107700_117098207_117088713_117079219_117069724_117060229_117050733_117041236_117031739_117022241_117012742_117003243_116993743_116984242_116974741_116965239_116955736_116946233_116936729_116927225_116917720_116908214_116898707_116889200_116879692_116870184_116860675_116851165_116841655_116832144_116822632_116813120_116803607_116794094_116784580_116775065_116765549_116756033_116746516_116736999_116727481_116717962_116708443_116698923_116689402_116679881_116670359_116660837_116651314_116641790_116632265_116622740_116613215_116603688_116594161_116584634_116575105_116565577_116556047_116546517_116536986_116527455_116517923_116508390_116498857_116489323_116479788_116470253_116460717_116451181_116441644_116432106_116422568_116413029_116403489_116393949_116384408_116374866_116365324_116355781_116346238_116336694_116327149_116317604_116308058_116298512_116288965_116279417_116269868_116260319_116250770_116241220_116231669_116222117_116212565_116203012_116193459_116183905_116174350_116164795_116155239_116145683_116136126_116126568_116117010_116107451_116097891_116088331_116078770_116069209_116059647_116050084_116040521_116030957_116021392_116011827_116002261_115992695_115983128_115973561_115963992_115954424_115944854_115935284_115925713_115916142_115906570_115896998_115887425_115877851_115868277_115858702_115849126_115839550_115829973_115820396_115810818_115801240_115791660_115782081_115772500_115762919_115753338_115743755_115734172_115724589_115715005_115705420_115695835_115686249_115676663_115667076_115657488_115647900_115638311_115628722_115619132_115609541_115599950_115590358_115580765_115571172_115561579_115551984_115542389_115532794_115523198_115513601_115504004_115494406_115484808_115475209_115465609_115456009_115446408_115436806_115427204_115417602_115407999_115398395_115388790_115379185_115369580_115359974_115350367_115340759_115331152_115321543_115311934_115302324_115292714_115283103_115273491_115263879_115254267,
  115244653_115235040_115225425_115215810_115206194_115196578_115186961_115177344_115167726_115158108_115148488_115138869_115129248_115119627_115110006_115100384_115090761_115081138_115071514_115061890_115052265_115042639_115033013_115023387_115013759_115004131_114994503_114984874_114975244_114965614_114955983_114946352_114936720_114927088_114917455_114907821_114898187_114888552_114878916_114869281_114859644_114850007_114840369_114830731_114821092_114811453_114801813_114792172_114782531_114772889_114763247_114753604_114743961_114734317_114724672_114715027_114705382_114695735_114686088_114676441_114666793_114657145_114647495_114637846_114628196_114618545_114608893_114599241_114589589_114579936_114570282_114560628_114550973_114541318_114531662_114522006_114512349_114502691_114493033_114483374_114473715_114464055_114454395_114444734_114435072_114425410_114415748_114406084_114396421_114386756_114377092_114367426_114357760_114348094_114338427_114328759_114319091_114309422_114299753_114290083_114280412_114270741_114261070_114251398_114241725_114232052_114222378_114212704_114203029_114193354_114183678_114174001_114164324_114154646_114144968_114135290_114125610_114115931_114106250_114096569_114086888_114077206_114067523_114057840_114048157_114038472_114028788_114019102_114009417_113999730_113990043_113980356_113970668_113960979_113951290_113941601_113931910_113922220_113912528_113902837_113893144_113883451_113873758_113864064_113854370_113844674_113834979_113825283_113815586_113805889_113796191_113786493_113776794_113767095_113757395_113747694_113737993_113728292_113718590_113708887_113699184_113689481_113679776_113670072_113660367_113650661_113640954_113631248_113621540_113611832_113602124_113592415_113582706_113572996_113563285_113553574_113543862_113534150_113524437_113514724_113505011_113495296_113485582_113475866_113466150_113456434_113446717_113437000_113427282_113417563_113407844_113398125_113388405_113378684_113368963_113359242_113349520_113339797_113330074_113320350_113310626_113300901_113291176_113281450_113271724_113261997_113252270_113242542_113232814_113223085_113213355_113203625_113193895_113184164_113174432_113164700_113154968_113145235_113135501_113125767_113116033_113106298_113096562_113086826_113077090_113067352_113057615_113047877_113038138_113028399_113018659_113008919_112999178_112989437_112979695_112969953_112960210_112950467_112940723_112930979_112921234_112911489_112901743_112891997_112882250_112872503_112862755_112853007_112843258_112833509_112823759_112814008_112804258_112794506_112784754_112775002,
  112765249_112755496_112745742_112735988_112726233_112716477_112706722_112696965_112687208_112677451_112667693_112657935_112648176_112638417_112628657_112618897_112609136_112599374_112589613_112579850_112570087_112560324_112550560_112540796_112531031_112521266_112511500_112501734_112491967_112482200_112472432_112462664_112452895_112443126_112433356_112423586_112413815_112404044_112394272_112384500_112374728_112364955_112355181_112345407_112335632_112325857_112316082_112306305_112296529_112286752_112276974_112267196_112257418_112247639_112237859_112228080_112218299_112208518_112198737_112188955_112179173_112169390_112159606_112149823_112140038_112130254_112120468_112110683_112100897_112091110_112081323_112071535_112061747_112051958_112042169_112032380_112022590_112012799_112003008_111993217_111983425_111973633_111963840_111954046_111944253_111934458_111924664_111914868_111905073_111895277_111885480_111875683_111865885_111856087_111846289_111836490_111826690_111816890_111807090_111797289_111787488_111777686_111767884_111758081_111748278_111738474_111728670_111718865_111709060_111699255_111689449_111679642_111669835_111660028_111650220_111640412_111630603_111620794_111610984_111601174_111591363_111581552_111571741_111561929_111552116_111542303_111532490_111522676_111512862_111503047_111493232_111483416_111473600_111463783_111453966_111444149_111434331_111424512_111414693_111404874_111395054_111385234_111375413_111365592_111355771_111345949_111336126_111326303_111316480_111306656_111296832_111287007_111277182_111267356_111257530_111247703_111237876_111228049_111218221_111208393_111198564_111188735_111178905_111169075_111159244_111149413_111139582_111129750_111119917_111110085_111100251_111090418_111080583_111070749_111060914_111051078_111041242_111031406_111021569_111011732_111001894_110992056_110982218_110972379_110962539_110952699_110942859_110933018_110923177_110913336_110903493_110893651_110883808_110873965_110864121_110854277_110844432_110834587_110824741_110814895_110805049_110795202_110785355_110775507_110765659_110755810_110745961_110736112_110726262_110716412_110706561_110696710_110686858_110677006_110667154_110657301_110647447_110637594_110627739_110617885_110608030_110598174_110588318_110578462_110568605_110558748_110548891_110539033_110529174_110519315_110509456_110499596_110489736_110479876_110470015_110460153_110450292_110440429_110430567_110420704_110410840_110400976_110391112_110381247_110371382_110361516_110351650_110341784_110331917_110322050_110312182_110302314_110292445_110282576_110272707_110262837,
  110252967_110243097_110233226_110223354_110213482_110203610_110193737_110183864_110173991_110164117_110154243_110144368_110134493_110124617_110114741_110104865_110094988_110085111_110075233_110065355_110055477_110045598_110035719_110025839_110015959_110006079_109996198_109986317_109976435_109966553_109956671_109946788_109936905_109927021_109917137_109907252_109897367_109887482_109877596_109867710_109857824_109847937_109838050_109828162_109818274_109808385_109798497_109788607_109778718_109768828_109758937_109749046_109739155_109729263_109719371_109709479_109699586_109689693_109679799_109669905_109660010_109650116_109640220_109630325_109620429_109610532_109600636_109590738_109580841_109570943_109561044_109551146_109541247_109531347_109521447_109511547_109501646_109491745_109481843_109471942_109462039_109452137_109442234_109432330_109422426_109412522_109402618_109392713_109382807_109372902_109362996_109353089_109343182_109333275_109323367_109313459_109303551_109293642_109283733_109273823_109263913_109254003_109244092_109234181_109224270_109214358_109204446_109194533_109184620_109174707_109164793_109154879_109144965_109135050_109125135_109115219_109105303_109095387_109085470_109075553_109065636_109055718_109045799_109035881_109025962_109016043_109006123_108996203_108986282_108976362_108966440_108956519_108946597_108936675_108926752_108916829_108906905_108896982_108887058_108877133_108867208_108857283_108847357_108837431_108827505_108817578_108807651_108797724_108787796_108777868_108767939_108758011_108748081_108738152_108728222_108718291_108708361_108698430_108688498_108678566_108668634_108658702_108648769_108638836_108628902_108618968_108609034_108599099_108589164_108579229_108569293_108559357_108549421_108539484_108529547_108519609_108509671_108499733_108489795_108479856_108469917_108459977_108450037_108440097_108430156_108420215_108410274_108400332_108390390_108380447_108370505_108360561_108350618_108340674_108330730_108320785_108310841_108300895_108290950_108281004_108271058_108261111_108251164_108241217_108231269_108221321_108211373_108201424_108191475_108181526_108171576_108161626_108151676_108141725_108131774_108121823_108111871_108101919_108091966_108082014_108072060_108062107_108052153_108042199_108032245_108022290_108012335_108002379_107992423_107982467_107972511_107962554_107952597_107942639_107932682_107922723_107912765_107902806_107892847_107882887_107872928_107862967_107853007_107843046_107833085_107823124_107813162_107803200_107793237_107783274_107773311_107763348_107753384_107743420_107733455_107723491,
  107713526_107703560_107693594_107683628_107673662_107663695_107653728_107643761_107633793_107623825_107613857_107603888_107593919_107583950_107573980_107564010_107554040_107544069_107534098_107524127_107514156_107504184_107494212_107484239_107474266_107464293_107454320_107444346_107434372_107424397_107414422_107404447_107394472_107384496_107374520_107364544_107354567_107344590_107334613_107324636_107314658_107304680_107294701_107284722_107274743_107264764_107254784_107244804_107234823_107224843_107214862_107204880_107194899_107184917_107174935_107164952_107154969_107144986_107135003_107125019_107115035_107105050_107095066_107085081_107075095_107065110_107055124_107045138_107035151_107025164_107015177_107005190_106995202_106985214_106975226_106965237_106955248_106945259_106935269_106925279_106915289_106905299_106895308_106885317_106875326_106865334_106855342_106845350_106835357_106825365_106815372_106805378_106795384_106785390_106775396_106765402_106755407_106745411_106735416_106725420_106715424_106705428_106695431_106685434_106675437_106665440_106655442_106645444_106635445_106625447_106615448_106605448_106595449_106585449_106575449_106565449_106555448_106545447_106535446_106525444_106515442_106505440_106495438_106485435_106475432_106465429_106455425_106445421_106435417_106425413_106415408_106405403_106395398_106385393_106375387_106365381_106355374_106345368_106335361_106325354_106315346_106305338_106295330_106285322_106275313_106265305_106255295_106245286_106235276_106225266_106215256_106205246_106195235_106185224_106175212_106165201_106155189_106145177_106135164_106125152_106115139_106105125_106095112_106085098_106075084_106065070_106055055_106045040_106035025_106025010_106014994_106004978_105994962_105984945_105974929_105964912_105954894_105944877_105934859_105924841_105914823_105904804_105894785_105884766_105874747_105864727_105854707_105844687_105834666_105824646_105814625_105804603_105794582_105784560_105774538_105764516_105754493_105744471_105734447_105724424_105714401_105704377_105694353_105684328_105674304_105664279_105654254_105644228_105634203_105624177_105614151_105604124_105594098_105584071_105574044_105564016_105553989_105543961_105533933_105523904_105513875_105503847_105493817_105483788_105473758_105463728_105453698_105443668_105433637_105423606_105413575_105403544_105393512_105383480_105373448_105363416_105353383_105343350_105333317_105323284_105313250_105303216_105293182_105283148_105273113_105263078_105253043_105243008_105232972_105222937_105212901_105202864_105192828_105182791_105172754_105162717,
  105152679_105142642_105132604_105122565_105112527_105102488_105092449_105082410_105072371_105062331_105052291_105042251_105032211_105022171_105012130_105002089_104992047_104982006_104971964_104961922_104951880_104941838_104931795_104921752_104911709_104901666_104891622_104881578_104871534_104861490_104851446_104841401_104831356_104821311_104811266_104801220_104791174_104781128_104771082_104761035_104750988_104740941_104730894_104720847_104710799_104700751_104690703_104680655_104670606_104660558_104650509_104640459_104630410_104620360_104610311_104600260_104590210_104580160_104570109_104560058_104550007_104539955_104529904_104519852_104509800_104499748_104489695_104479642_104469590_104459536_104449483_104439430_104429376_104419322_104409268_104399213_104389159_104379104_104369049_104358994_104348938_104338882_104328826_104318770_104308714_104298658_104288601_104278544_104268487_104258429_104248372_104238314_104228256_104218198_104208140_104198081_104188022_104177963_104167904_104157845_104147785_104137725_104127665_104117605_104107544_104097484_104087423_104077362_104067301_104057239_104047178_104037116_104027054_104016992_104006929_103996866_103986804_103976741_103966677_103956614_103946550_103936486_103926422_103916358_103906294_103896229_103886164_103876099_103866034_103855969_103845903_103835837_103825771_103815705_103805639_103795572_103785506_103775439_103765372_103755304_103745237_103735169_103725101_103715033_103704965_103694896_103684828_103674759_103664690_103654621_103644551_103634482_103624412_103614342_103604272_103594201_103584131_103574060_103563989_103553918_103543847_103533776_103523704_103513632_103503560_103493488_103483416_103473343_103463271_103453198_103443125_103433051_103422978_103412904_103402831_103392757_103382682_103372608_103362534_103352459_103342384_103332309_103322234_103312159_103302083_103292007_103281931_103271855_103261779_103251703_103241626_103231549_103221472_103211395_103201318_103191240_103181163_103171085_103161007_103150929_103140851_103130772_103120694_103110615_103100536_103090457_103080377_103070298_103060218_103050138_103040058_103029978_103019898_103009817_102999737_102989656_102979575_102969494_102959412_102949331_102939249_102929168_102919086_102909003_102898921_102888839_102878756_102868673_102858590_102848507_102838424_102828341_102818257_102808173_102798090_102788006_102777921_102767837_102757752_102747668_102737583_102727498_102717413_102707328_102697242_102687157_102677071_102666985_102656899_102646813_102636726_102626640_102616553_102606466_102596379_102586292,
  102576205_102566117_102556030_102545942_102535854_102525766_102515678_102505590_102495501_102485413_102475324_102465235_102455146_102445057_102434967_102424878_102414788_102404699_102394609_102384519_102374428_102364338_102354248_102344157_102334066_102323975_102313884_102303793_102293702_102283610_102273518_102263427_102253335_102243243_102233151_102223058_102212966_102202873_102192780_102182688_102172595_102162501_102152408_102142315_102132221_102122127_102112034_102101940_102091846_102081751_102071657_102061563_102051468_102041373_102031278_102021183_102011088_102000993_101990897_101980802_101970706_101960610_101950514_101940418_101930322_101920226_101910129_101900033_101889936_101879839_101869742_101859645_101849548_101839451_101829353_101819256_101809158_101799060_101788962_101778864_101768766_101758668_101748569_101738471_101728372_101718273_101708174_101698075_101687976_101677877_101667777_101657678_101647578_101637478_101627378_101617278_101607178_101597078_101586978_101576877_101566777_101556676_101546575_101536474_101526373_101516272_101506171_101496069_101485968_101475866_101465765_101455663_101445561_101435459_101425356_101415254_101405152_101395049_101384947_101374844_101364741_101354638_101344535_101334432_101324329_101314225_101304122_101294018_101283915_101273811_101263707_101253603_101243499_101233394_101223290_101213186_101203081_101192977_101182872_101172767_101162662_101152557_101142452_101132347_101122241_101112136_101102030_101091925_101081819_101071713_101061607_101051501_101041395_101031289_101021182_101011076_101000969_100990863_100980756_100970649_100960542_100950435_100940328_100930221_100920113_100910006_100899899_100889791_100879683_100869576_100859468_100849360_100839252_100829144_100819035_100808927_100798819_100788710_100778602_100768493_100758384_100748275_100738166_100728057_100717948_100707839_100697730_100687620_100677511_100667401_100657292_100647182_100637072_100626962_100616852_100606742_100596632_100586522_100576412_100566301_100556191_100546080_100535970_100525859_100515748_100505637_100495526_100485415_100475304_100465193_100455082_100444971_100434859_100424748_100414636_100404524_100394413_100384301_100374189_100364077_100353965_100343853_100333741_100323629_100313516_100303404_100293291_100283179_100273066_100262954_100252841_100242728_100232615_100222502_100212389_100202276_100192163_100182050_100171936_100161823_100151710_100141596_100131482_100121369_100111255_100101141_100091027_100080914_100070800_100060686_100050571_100040457_100030343_100020229_100010114_100000000]

/-- `_acg4_vtable`, pmesh/_window_acg.h:4164-6212: 8192 entries. -/
def acg4Rows : List ℕ := [
  139646114_139646114_139646111_139646107_139646102_139646095_139646087_139646077_139646065_139646052_139646037_139646021_139646003_139645984_139645963_139645941_139645917_139645892_139645865_139645836_139645806_139645775_139645741_139645707_139645671_139645633_139645593_139645553_139645510_139645466_139645421_139645374_139645325_139645275_139645224_139645170_139645116_139645059_139645002_139644942_139644881_139644819_139644755_139644690_139644622_139644554_139644484_139644412_139644339_139644264_139644188_139644110_139644031_139643950_139643867_139643783_139643698_139643611_139643522_139643432_139643340_139643247_139643152_139643056_139642958_139642859_139642758_139642655_139642551_139642446_139642338_139642230_139642120_139642008_139641895_139641780_139641663_139641546_139641426_139641305_139641183_139641059_139640933_139640806_139640677_139640547_139640415_139640282_139640147_139640011_139639873_139639733_139639592_139639450_139639306_139639160_139639013_139638864_139638714_139638562_139638409_139638254_139638097_139637939_139637780_139637619_139637456_139637292_139637126_139636959_139636791_139636620_139636448_139636275_139636100_139635924_139635746_139635566_139635385_139635203_139635018_139634833_139634645_139634457_139634266_139634074_139633881_139633686_139633490_139633292_139633092_139632891_139632688_139632484_139632278_139632071_139631862_139631652_139631440_139631227_139631012_139630795_139630577_139630358_139630137_139629914_139629690_139629464_139629237_139629008_139628777_139628546_139628312_139628077_139627841_139627603_139627363_139627122_139626879_139626635_139626389_139626142_139625893_139625643_139625391_139625137_139624882_139624626_139624368_139624108_139623847_139623584_139623320_139623054_139622787_139622518_139622247_139621975_139621702_139621427_139621150_139620872_139620593_139620311_139620029_139619744_139619459_139619171_139618882_139618592_139618300_139618007_139617711_139617415_139617117_139616817_139616516_139616213_139615909_139615603_139615296_139614987_139614676_139614364_139614051_139613736_139613419_139613101_139612781_139612460_139612137_139611813_139611487_139611160_139610831_139610501_139610169_139609835_139609500_139609163_139608825_139608485_139608144_139607802_139607457_139607111_139606764_139606415_139606065_139605713_139605359_139605004_139604647_139604289_139603929_139603568_139603205_139602841_139602475_139602108_139601739_139601369_139600997_139600623_139600248_139599871_139599493_139599113_139598732_139598349_139597965_139597579_139597192_139596803_139596412_139596020,
  139595627_139595232_139594835_139594437_139594037_139593636_139593233_139592829_139592423_139592016_139591607_139591196_139590784_139590371_139589956_139589539_139589121_139588701_139588280_139587857_139587433_139587007_139586580_139586151_139585720_139585288_139584855_139584420_139583983_139583545_139583105_139582664_139582221_139581777_139581331_139580884_139580435_139579984_139579532_139579079_139578624_139578167_139577709_139577249_139576788_139576325_139575861_139575395_139574928_139574459_139573989_139573517_139573043_139572568_139572091_139571613_139571134_139570652_139570170_139569685_139569200_139568712_139568223_139567733_139567241_139566747_139566252_139565756_139565258_139564758_139564257_139563754_139563250_139562744_139562237_139561728_139561218_139560706_139560192_139559677_139559161_139558642_139558123_139557602_139557079_139556555_139556029_139555502_139554973_139554442_139553911_139553377_139552842_139552306_139551768_139551228_139550687_139550144_139549600_139549054_139548507_139547958_139547408_139546856_139546303_139545748_139545191_139544633_139544074_139543512_139542950_139542386_139541820_139541253_139540684_139540114_139539542_139538968_139538393_139537817_139537239_139536660_139536078_139535496_139534912_139534326_139533739_139533150_139532560_139531968_139531375_139530780_139530184_139529586_139528986_139528385_139527783_139527178_139526573_139525966_139525357_139524747_139524135_139523522_139522907_139522291_139521673_139521053_139520432_139519810_139519186_139518560_139517933_139517304_139516674_139516043_139515409_139514775_139514138_139513500_139512861_139512220_139511578_139510934_139510288_139509641_139508993_139508343_139507691_139507038_139506383_139505727_139505069_139504410_139503749_139503087_139502423_139501757_139501090_139500422_139499752_139499080_139498407_139497732_139497056_139496378_139495699_139495018_139494336_139493652_139492967_139492280_139491592_139490902_139490210_139489517_139488823_139488126_139487429_139486730_139486029_139485327_139484623_139483918_139483211_139482502_139481793_139481081_139480368_139479654_139478938_139478220_139477501_139476780_139476058_139475335_139474609_139473883_139473154_139472425_139471693_139470960_139470226_139469490_139468752_139468013_139467273_139466531_139465787_139465042_139464296_139463547_139462798_139462046_139461294_139460539_139459783_139459026_139458267_139457507_139456745_139455981_139455216_139454450_139453682_139452912_139452141_139451368_139450594_139449818_139449041_139448262_139447482_139446700_139445916_139445132,
  139444345_139443557_139442768_139441977_139441184_139440390_139439594_139438797_139437998_139437198_139436396_139435593_139434788_139433982_139433174_139432365_139431554_139430741_139429927_139429112_139428295_139427476_139426656_139425834_139425011_139424187_139423360_139422533_139421703_139420872_139420040_139419206_139418371_139417534_139416695_139415855_139415014_139414171_139413326_139412480_139411633_139410783_139409933_139409081_139408227_139407371_139406515_139405656_139404797_139403935_139403072_139402208_139401342_139400474_139399605_139398735_139397863_139396989_139396114_139395237_139394359_139393479_139392598_139391715_139390831_139389945_139389058_139388169_139387279_139386387_139385493_139384598_139383702_139382804_139381904_139381003_139380100_139379196_139378291_139377383_139376475_139375564_139374653_139373739_139372824_139371908_139370990_139370071_139369150_139368227_139367303_139366378_139365451_139364522_139363592_139362660_139361727_139360793_139359856_139358919_139357979_139357039_139356096_139355153_139354207_139353260_139352312_139351362_139350411_139349458_139348503_139347547_139346589_139345630_139344670_139343708_139342744_139341779_139340812_139339844_139338874_139337903_139336930_139335956_139334980_139334003_139333024_139332043_139331061_139330078_139329093_139328106_139327118_139326129_139325138_139324145_139323151_139322155_139321158_139320159_139319159_139318157_139317154_139316149_139315143_139314135_139313126_139312115_139311102_139310088_139309073_139308056_139307037_139306017_139304996_139303973_139302948_139301922_139300894_139299865_139298835_139297802_139296769_139295733_139294697_139293658_139292619_139291577_139290534_139289490_139288444_139287397_139286348_139285297_139284245_139283192_139282137_139281080_139280022_139278962_139277901_139276839_139275774_139274709_139273642_139272573_139271503_139270431_139269358_139268283_139267206_139266129_139265049_139263968_139262886_139261802_139260716_139259629_139258541_139257451_139256359_139255266_139254172_139253076_139251978_139250879_139249778_139248676_139247572_139246467_139245360_139244252_139243142_139242031_139240918_139239804_139238688_139237571_139236452_139235332_139234210_139233086_139231961_139230835_139229707_139228577_139227446_139226314_139225180_139224044_139222907_139221768_139220628_139219486_139218343_139217199_139216052_139214905_139213755_139212605_139211452_139210298_139209143_139207986_139206828_139205668_139204507_139203344_139202179_139201013_139199846_139198677_139197506_139196334_139195161_139193986,
  139192809_139191631_139190452_139189271_139188088_139186904_139185718_139184531_139183342_139182152_139180960_139179767_139178572_139177376_139176178_139174979_139173778_139172576_139171372_139170167_139168960_139167751_139166541_139165330_139164117_139162903_139161687_139160469_139159250_139158030_139156808_139155584_139154359_139153132_139151904_139150675_139149444_139148211_139146977_139145741_139144504_139143265_139142025_139140783_139139540_139138295_139137049_139135801_139134552_139133301_139132049_139130795_139129540_139128283_139127025_139125765_139124503_139123241_139121976_139120710_139119443_139118174_139116903_139115631_139114358_139113083_139111806_139110528_139109249_139107968_139106685_139105401_139104116_139102828_139101540_139100250_139098958_139097665_139096370_139095074_139093776_139092477_139091177_139089874_139088571_139087265_139085959_139084650_139083341_139082029_139080717_139079402_139078086_139076769_139075450_139074130_139072808_139071485_139070160_139068834_139067506_139066176_139064845_139063513_139062179_139060844_139059507_139058168_139056828_139055487_139054144_139052799_139051453_139050106_139048757_139047406_139046054_139044701_139043346_139041989_139040631_139039271_139037910_139036548_139035184_139033818_139032451_139031082_139029712_139028341_139026967_139025593_139024217_139022839_139021460_139020079_139018697_139017313_139015928_139014541_139013153_139011763_139010372_139008979_139007585_139006189_139004792_139003393_139001993_139000591_138999188_138997783_138996377_138994969_138993560_138992149_138990737_138989323_138987907_138986491_138985072_138983652_138982231_138980808_138979384_138977958_138976531_138975102_138973671_138972239_138970806_138969371_138967935_138966497_138965057_138963617_138962174_138960730_138959285_138957838_138956389_138954939_138953488_138952035_138950581_138949125_138947667_138946208_138944748_138943286_138941822_138940357_138938891_138937423_138935954_138934483_138933010_138931536_138930061_138928584_138927105_138925625_138924144_138922661_138921176_138919690_138918203_138916714_138915223_138913731_138912238_138910743_138909246_138907748_138906248_138904747_138903245_138901741_138900235_138898728_138897220_138895710_138894198_138892685_138891171_138889655_138888137_138886618_138885098_138883576_138882052_138880527_138879001_138877473_138875943_138874412_138872879_138871345_138869810_138868273_138866734_138865194_138863653_138862110_138860565_138859019_138857472_138855923_138854372_138852820_138851267_138849712_138848155_138846597_138845038_138843477,
  138841914_138840350_138838785_138837218_138835649_138834079_138832508_138830935_138829361_138827785_138826207_138824628_138823048_138821466_138819882_138818297_138816711_138815123_138813534_138811943_138810350_138808756_138807161_138805564_138803965_138802366_138800764_138799161_138797557_138795951_138794344_138792735_138791124_138789513_138787899_138786284_138784668_138783050_138781431_138779810_138778188_138776564_138774938_138773312_138771683_138770054_138768422_138766789_138765155_138763519_138761882_138760243_138758603_138756961_138755318_138753673_138752027_138750379_138748730_138747080_138745427_138743774_138742119_138740462_138738804_138737144_138735483_138733820_138732156_138730490_138728823_138727155_138725485_138723813_138722140_138720465_138718789_138717112_138715433_138713752_138712070_138710387_138708702_138707015_138705327_138703638_138701947_138700254_138698560_138696865_138695168_138693470_138691770_138690068_138688365_138686661_138684955_138683248_138681539_138679829_138678117_138676403_138674689_138672972_138671255_138669535_138667815_138666092_138664369_138662643_138660917_138659189_138657459_138655728_138653995_138652261_138650525_138648788_138647050_138645309_138643568_138641825_138640080_138638334_138636587_138634838_138633087_138631335_138629582_138627827_138626070_138624312_138622553_138620792_138619030_138617266_138615500_138613734_138611965_138610195_138608424_138606651_138604877_138603101_138601324_138599545_138597765_138595983_138594200_138592416_138590629_138588842_138587053_138585262_138583470_138581676_138579881_138578085_138576287_138574487_138572686_138570884_138569080_138567275_138565468_138563659_138561849_138560038_138558225_138556411_138554595_138552778_138550959_138549139_138547317_138545494_138543669_138541843_138540015_138538186_138536355_138534523_138532690_138530855_138529018_138527180_138525341_138523500_138521657_138519813_138517968_138516121_138514272_138512423_138510571_138508718_138506864_138505008_138503151_138501292_138499432_138497570_138495707_138493842_138491976_138490109_138488240_138486369_138484497_138482623_138480748_138478872_138476994_138475114_138473233_138471351_138469467_138467582_138465695_138463807_138461917_138460026_138458133_138456239_138454343_138452446_138450547_138448647_138446745_138444842_138442938_138441032_138439124_138437215_138435305_138433393_138431479_138429564_138427648_138425730_138423811_138421890_138419968_138418044_138416119_138414192_138412264_138410334_138408403_138406470_138404536_138402601_138400664_138398725_138396785_138394844,
  138392901_138390957_138389011_138387063_138385115_138383164_138381213_138379259_138377305_138375349_138373391_138371432_138369471_138367509_138365546_138363581_138361614_138359646_138357677_138355706_138353733_138351760_138349784_138347808_138345829_138343850_138341868_138339886_138337902_138335916_138333929_138331940_138329950_138327959_138325966_138323971_138321976_138319978_138317979_138315979_138313977_138311974_138309969_138307963_138305956_138303946_138301936_138299924_138297910_138295895_138293879_138291861_138289841_138287821_138285798_138283774_138281749_138279722_138277694_138275665_138273633_138271601_138269567_138267531_138265494_138263456_138261416_138259374_138257332_138255287_138253241_138251194_138249145_138247095_138245043_138242990_138240936_138238880_138236822_138234763_138232703_138230641_138228577_138226513_138224446_138222378_138220309_138218238_138216166_138214093_138212017_138209941_138207863_138205783_138203702_138201620_138199536_138197451_138195364_138193276_138191186_138189095_138187002_138184908_138182812_138180715_138178617_138176517_138174415_138172312_138170208_138168102_138165995_138163886_138161776_138159664_138157551_138155437_138153321_138151203_138149084_138146964_138144842_138142718_138140594_138138467_138136340_138134210_138132080_138129948_138127814_138125679_138123542_138121404_138119265_138117124_138114982_138112838_138110693_138108546_138106398_138104248_138102097_138099945_138097791_138095635_138093478_138091320_138089160_138086999_138084836_138082672_138080506_138078339_138076171_138074001_138071829_138069656_138067482_138065306_138063129_138060950_138058770_138056588_138054405_138052220_138050034_138047847_138045658_138043467_138041275_138039082_138036887_138034691_138032493_138030294_138028094_138025892_138023688_138021483_138019277_138017069_138014860_138012649_138010437_138008223_138006008_138003791_138001573_137999354_137997133_137994910_137992686_137990461_137988234_137986006_137983777_137981545_137979313_137977079_137974843_137972607_137970368_137968128_137965887_137963644_137961400_137959155_137956908_137954659_137952409_137950158_137947905_137945650_137943395_137941137_137938879_137936619_137934357_137932094_137929830_137927564_137925296_137923028_137920757_137918486_137916212_137913938_137911662_137909384_137907105_137904825_137902543_137900260_137897975_137895689_137893401_137891112_137888822_137886530_137884236_137881941_137879645_137877347_137875048_137872747_137870445_137868142_137865837_137863530_137861223_137858913_137856602_137854290_137851977_137849661,
  137847345_137845027_137842707_137840387_137838064_137835740_137833415_137831089_137828760_137826431_137824100_137821768_137819434_137817098_137814762_137812423_137810084_137807743_137805400_137803056_137800711_137798364_137796016_137793666_137791315_137788962_137786608_137784252_137781895_137779537_137777177_137774816_137772453_137770089_137767723_137765356_137762988_137760618_137758247_137755874_137753500_137751124_137748747_137746368_137743988_137741607_137739224_137736840_137734454_137732067_137729678_137727288_137724897_137722504_137720109_137717713_137715316_137712917_137710517_137708116_137705713_137703308_137700902_137698495_137696086_137693676_137691265_137688851_137686437_137684021_137681604_137679185_137676765_137674343_137671920_137669495_137667069_137664642_137662213_137659783_137657351_137654918_137652483_137650047_137647610_137645171_137642731_137640289_137637846_137635401_137632955_137630507_137628058_137625608_137623156_137620703_137618248_137615792_137613335_137610876_137608415_137605954_137603490_137601026_137598560_137596092_137593623_137591153_137588681_137586207_137583733_137581257_137578779_137576300_137573820_137571338_137568854_137566370_137563884_137561396_137558907_137556417_137553925_137551431_137548937_137546441_137543943_137541444_137538944_137536442_137533938_137531434_137528927_137526420_137523911_137521400_137518889_137516375_137513861_137511344_137508827_137506308_137503787_137501266_137498742_137496218_137493691_137491164_137488635_137486105_137483573_137481039_137478505_137475969_137473431_137470892_137468352_137465810_137463267_137460722_137458176_137455629_137453080_137450529_137447977_137445424_137442870_137440314_137437756_137435197_137432637_137430075_137427512_137424947_137422381_137419814_137417245_137414675_137412103_137409530_137406955_137404380_137401802_137399223_137396643_137394061_137391478_137388894_137386308_137383721_137381132_137378542_137375950_137373357_137370763_137368167_137365570_137362971_137360371_137357769_137355166_137352562_137349956_137347349_137344740_137342130_137339519_137336906_137334292_137331676_137329059_137326440_137323820_137321199_137318576_137315952_137313326_137310699_137308071_137305441_137302810_137300177_137297543_137294907_137292270_137289632_137286992_137284351_137281709_137279064_137276419_137273772_137271124_137268474_137265823_137263171_137260517_137257861_137255205_137252546_137249887_137247226_137244563_137241900_137239234_137236568_137233900_137231230_137228559_137225887_137223213_137220538_137217862_137215184_137212504_137209824,
  137207141_137204458_137201773_137199086_137196399_137193709_137191019_137188327_137185633_137182938_137180242_137177544_137174845_137172145_137169443_137166739_137164035_137161329_137158621_137155912_137153202_137150490_137147777_137145062_137142346_137139629_137136910_137134190_137131468_137128745_137126020_137123295_137120567_137117839_137115109_137112377_137109644_137106910_137104174_137101437_137098699_137095959_137093217_137090475_137087730_137084985_137082238_137079490_137076740_137073989_137071236_137068482_137065727_137062970_137060212_137057452_137054691_137051929_137049165_137046400_137043633_137040865_137038096_137035325_137032553_137029779_137027004_137024228_137021450_137018671_137015890_137013108_137010325_137007540_137004754_137001966_136999177_136996387_136993595_136990802_136988007_136985211_136982414_136979615_136976815_136974013_136971210_136968406_136965600_136962793_136959984_136957174_136954363_136951550_136948736_136945920_136943103_136940285_136937465_136934644_136931821_136928997_136926172_136923345_136920517_136917687_136914856_136912024_136909190_136906355_136903519_136900681_136897841_136895001_136892159_136889315_136886470_136883624_136880776_136877927_136875077_136872225_136869371_136866517_136863661_136860803_136857944_136855084_136852222_136849359_136846495_136843629_136840762_136837893_136835023_136832152_136829279_136826405_136823530_136820653_136817774_136814895_136812013_136809131_136806247_136803362_136800475_136797587_136794698_136791807_136788914_136786021_136783126_136780229_136777332_136774432_136771532_136768630_136765727_136762822_136759916_136757008_136754099_136751189_136748277_136745364_136742450_136739534_136736617_136733698_136730778_136727857_136724934_136722010_136719084_136716157_136713229_136710299_136707368_136704436_136701502_136698567_136695630_136692692_136689753_136686812_136683870_136680926_136677981_136675035_136672087_136669138_136666188_136663236_136660283_136657328_136654372_136651415_136648456_136645496_136642534_136639572_136636607_136633642_136630675_136627706_136624736_136621765_136618793_136615819_136612843_136609867_136606889_136603909_136600928_136597946_136594962_136591977_136588991_136586003_136583014_136580024_136577032_136574039_136571044_136568048_136565051_136562052_136559052_136556050_136553047_136550043_136547037_136544030_136541022_136538012_136535001_136531988_136528974_136525959_136522942_136519924_136516905_136513884_136510862_136507838_136504814_136501787_136498760_136495731_136492700_136489668_136486635_136483601_136480565_136477527,
  136474489_136471449_136468407_136465365_136462320_136459275_136456228_136453180_136450130_136447079_136444027_136440973_136437918_136434861_136431803_136428744_136425684_136422622_136419558_136416494_136413427_136410360_136407291_136404221_136401149_136398076_136395002_136391926_136388849_136385771_136382691_136379610_136376528_136373444_136370358_136367272_136364184_136361094_136358004_136354912_136351818_136348723_136345627_136342530_136339431_136336330_136333229_136330126_136327021_136323915_136320808_136317700_136314590_136311479_136308366_136305252_136302137_136299020_136295902_136292783_136289662_136286540_136283416_136280292_136277165_136274038_136270909_136267779_136264647_136261514_136258379_136255244_136252107_136248968_136245828_136242687_136239544_136236400_136233255_136230109_136226961_136223811_136220660_136217508_136214355_136211200_136208044_136204886_136201727_136198567_136195406_136192243_136189078_136185913_136182746_136179577_136176407_136173236_136170064_136166890_136163715_136160538_136157360_136154181_136151001_136147819_136144635_136141451_136138264_136135077_136131888_136128698_136125507_136122314_136119120_136115924_136112727_136109529_136106330_136103129_136099926_136096723_136093518_136090311_136087104_136083894_136080684_136077472_136074259_136071045_136067829_136064612_136061393_136058173_136054952_136051729_136048505_136045280_136042053_136038825_136035596_136032365_136029133_136025900_136022665_136019429_136016192_136012953_136009713_136006471_136003228_135999984_135996739_135993492_135990243_135986994_135983743_135980491_135977237_135973982_135970726_135967468_135964209_135960949_135957687_135954424_135951159_135947894_135944627_135941358_135938088_135934817_135931545_135928271_135924996_135921719_135918441_135915162_135911881_135908600_135905316_135902032_135898746_135895458_135892170_135888880_135885589_135882296_135879002_135875707_135872410_135869112_135865812_135862512_135859210_135855906_135852602_135849296_135845988_135842679_135839369_135836058_135832745_135829431_135826115_135822799_135819481_135816161_135812840_135809518_135806195_135802870_135799544_135796216_135792887_135789557_135786225_135782893_135779558_135776223_135772886_135769548_135766208_135762867_135759525_135756181_135752837_135749490_135746143_135742794_135739444_135736092_135732739_135729385_135726029_135722672_135719314_135715954_135712594_135709231_135705868_135702503_135699137_135695769_135692400_135689030_135685658_135682285_135678911_135675535_135672158_135668780_135665401_135662020_135658637_135655254,
  135651869_135648483_135645095_135641706_135638316_135634924_135631531_135628137_135624742_135621345_135617946_135614547_135611146_135607744_135604340_135600935_135597529_135594122_135590713_135587303_135583891_135580478_135577064_135573649_135570232_135566814_135563394_135559973_135556551_135553128_135549703_135546277_135542849_135539421_135535991_135532559_135529126_135525692_135522257_135518820_135515382_135511943_135508502_135505060_135501617_135498172_135494726_135491279_135487830_135484380_135480929_135477477_135474023_135470567_135467111_135463653_135460194_135456733_135453271_135449808_135446344_135442878_135439411_135435942_135432473_135429001_135425529_135422055_135418580_135415104_135411626_135408147_135404667_135401185_135397702_135394218_135390732_135387245_135383757_135380268_135376777_135373285_135369791_135366296_135362800_135359303_135355804_135352304_135348802_135345300_135341796_135338290_135334784_135331276_135327766_135324256_135320744_135317231_135313716_135310200_135306683_135303164_135299645_135296124_135292601_135289077_135285552_135282026_135278498_135274969_135271439_135267907_135264374_135260840_135257304_135253768_135250229_135246690_135243149_135239607_135236064_135232519_135228973_135225425_135221877_135218327_135214775_135211223_135207669_135204114_135200557_135196999_135193440_135189880_135186318_135182755_135179191_135175625_135172058_135168490_135164920_135161349_135157777_135154203_135150629_135147052_135143475_135139896_135136316_135132735_135129152_135125568_135121983_135118396_135114808_135111219_135107629_135104037_135100444_135096849_135093254_135089657_135086058_135082459_135078858_135075256_135071652_135068047_135064441_135060834_135057225_135053615_135050004_135046391_135042777_135039162_135035545_135031928_135028308_135024688_135021066_135017443_135013819_135010193_135006566_135002938_134999309_134995678_134992046_134988412_134984777_134981141_134977504_134973866_134970226_134966584_134962942_134959298_134955653_134952007_134948359_134944710_134941060_134937408_134933755_134930101_134926446_134922789_134919131_134915471_134911811_134908149_134904486_134900821_134897155_134893488_134889820_134886150_134882479_134878807_134875133_134871458_134867782_134864105_134860426_134856746_134853065_134849382_134845698_134842013_134838326_134834639_134830950_134827259_134823568_134819875_134816180_134812485_134808788_134805090_134801391_134797690_134793988_134790285_134786580_134782874_134779167_134775459_134771749_134768038_134764326_134760612_134756897_134753181_134749464_134745745,
  134742025_134738304_134734581_134730858_134727132_134723406_134719678_134715949_134712219_134708488_134704755_134701021_134697285_134693549_134689811_134686071_134682331_134678589_134674846_134671101_134667356_134663609_134659861_134656111_134652360_134648608_134644855_134641100_134637344_134633587_134629829_134626069_134622308_134618546_134614782_134611017_134607251_134603484_134599715_134595945_134592174_134588401_134584627_134580852_134577076_134573298_134569519_134565739_134561957_134558175_134554391_134550605_134546819_134543031_134539242_134535451_134531660_134527867_134524072_134520277_134516480_134512682_134508883_134505082_134501280_134497477_134493673_134489867_134486060_134482252_134478442_134474631_134470819_134467006_134463191_134459375_134455558_134451740_134447920_134444099_134440277_134436453_134432628_134428802_134424975_134421146_134417317_134413485_134409653_134405819_134401984_134398148_134394311_134390472_134386632_134382791_134378948_134375104_134371259_134367413_134363565_134359716_134355866_134352015_134348162_134344308_134340453_134336596_134332739_134328880_134325019_134321158_134317295_134313431_134309565_134305699_134301831_134297962_134294091_134290220_134286347_134282473_134278597_134274720_134270842_134266963_134263083_134259201_134255318_134251434_134247548_134243661_134239773_134235884_134231993_134228101_134224208_134220314_134216418_134212521_134208623_134204724_134200823_134196921_134193018_134189113_134185208_134181301_134177392_134173483_134169572_134165660_134161747_134157832_134153917_134150000_134146081_134142162_134138241_134134319_134130396_134126471_134122545_134118618_134114690_134110760_134106829_134102897_134098964_134095029_134091093_134087156_134083218_134079278_134075337_134071395_134067452_134063507_134059561_134055614_134051666_134047716_134043765_134039813_134035860_134031905_134027949_134023992_134020034_134016074_134012113_134008151_134004188_134000223_133996257_133992290_133988322_133984352_133980381_133976409_133972436_133968461_133964485_133960508_133956530_133952550_133948569_133944587_133940604_133936619_133932633_133928646_133924658_133920668_133916677_133912685_133908692_133904697_133900701_133896704_133892706_133888707_133884706_133880704_133876700_133872696_133868690_133864683_133860675_133856665_133852655_133848643_133844629_133840615_133836599_133832582_133828564_133824545_133820524_133816502_133812479_133808455_133804429_133800402_133796374_133792345_133788314_133784282_133780249_133776215_133772179_133768143_133764105_133760065_133756025_133751983,
  133747940_133743896_133739851_133735804_133731756_133727707_133723656_133719605_133715552_133711498_133707443_133703386_133699328_133695269_133691209_133687147_133683085_133679021_133674956_133670889_133666821_133662753_133658682_133654611_133650538_133646465_133642390_133638313_133634236_133630157_133626077_133621996_133617913_133613830_133609745_133605659_133601571_133597483_133593393_133589302_133585209_133581116_133577021_133572925_133568828_133564730_133560630_133556529_133552427_133548324_133544219_133540113_133536006_133531898_133527789_133523678_133519566_133515453_133511338_133507223_133503106_133498988_133494869_133490748_133486626_133482503_133478379_133474254_133470127_133465999_133461870_133457740_133453609_133449476_133445342_133441207_133437070_133432933_133428794_133424654_133420512_133416370_133412226_133408081_133403935_133399788_133395639_133391489_133387338_133383186_133379032_133374878_133370722_133366565_133362406_133358247_133354086_133349924_133345761_133341596_133337431_133333264_133329096_133324926_133320756_133316584_133312411_133308237_133304061_133299885_133295707_133291528_133287348_133283166_133278983_133274800_133270614_133266428_133262241_133258052_133253862_133249671_133245478_133241285_133237090_133232894_133228696_133224498_133220298_133216097_133211895_133207692_133203488_133199282_133195075_133190867_133186657_133182447_133178235_133174022_133169808_133165592_133161376_133157158_133152939_133148719_133144497_133140275_133136051_133131826_133127599_133123372_133119143_133114913_133110682_133106450_133102216_133097982_133093746_133089509_133085270_133081031_133076790_133072548_133068305_133064061_133059815_133055568_133051320_133047071_133042821_133038569_133034316_133030062_133025807_133021551_133017293_133013034_133008775_133004513_133000251_132995987_132991723_132987457_132983189_132978921_132974651_132970381_132966109_132961835_132957561_132953285_132949009_132944731_132940451_132936171_132931889_132927607_132923323_132919038_132914751_132910464_132906175_132901885_132897594_132893301_132889008_132884713_132880417_132876120_132871822_132867522_132863221_132858919_132854616_132850312_132846007_132841700_132837392_132833083_132828773_132824461_132820149_132815835_132811520_132807203_132802886_132798567_132794248_132789927_132785604_132781281_132776956_132772631_132768304_132763976_132759646_132755316_132750984_132746651_132742317_132737982_132733645_132729308_132724969_132720629_132716288_132711945_132707602_132703257_132698911_132694564_132690216_132685866_132681515_132677163,
  132672810_132668456_132664101_132659744_132655386_132651027_132646667_132642306_132637943_132633579_132629215_132624848_132620481_132616113_132611743_132607372_132603000_132598627_132594253_132589877_132585500_132581122_132576743_132572363_132567982_132563599_132559215_132554830_132550444_132546057_132541668_132537278_132532887_132528495_132524102_132519708_132515312_132510915_132506517_132502118_132497718_132493316_132488914_132484510_132480105_132475699_132471291_132466883_132462473_132458062_132453650_132449237_132444822_132440407_132435990_132431572_132427153_132422733_132418311_132413888_132409465_132405040_132400614_132396186_132391758_132387328_132382897_132378465_132374032_132369598_132365162_132360725_132356287_132351848_132347408_132342967_132338524_132334081_132329636_132325190_132320742_132316294_132311844_132307394_132302942_132298489_132294035_132289579_132285123_132280665_132276206_132271746_132267285_132262822_132258359_132253894_132249428_132244961_132240493_132236023_132231553_132227081_132222608_132218134_132213659_132209182_132204705_132200226_132195746_132191265_132186783_132182300_132177815_132173330_132168843_132164355_132159866_132155375_132150884_132146391_132141897_132137402_132132906_132128409_132123911_132119411_132114910_132110408_132105905_132101401_132096896_132092389_132087881_132083372_132078862_132074351_132069839_132065325_132060811_132056295_132051778_132047260_132042741_132038220_132033698_132029176_132024652_132020127_132015601_132011073_132006545_132002015_131997484_131992952_131988419_131983885_131979349_131974813_131970275_131965736_131961196_131956655_131952113_131947569_131943024_131938479_131933932_131929384_131924834_131920284_131915732_131911180_131906626_131902071_131897515_131892957_131888399_131883839_131879279_131874717_131870154_131865590_131861024_131856458_131851890_131847321_131842751_131838180_131833608_131829035_131824460_131819885_131815308_131810730_131806151_131801571_131796989_131792407_131787823_131783238_131778652_131774065_131769477_131764888_131760297_131755706_131751113_131746519_131741924_131737328_131732730_131728132_131723532_131718931_131714329_131709726_131705122_131700517_131695910_131691303_131686694_131682084_131677473_131672861_131668248_131663633_131659017_131654401_131649783_131645164_131640544_131635923_131631300_131626677_131622052_131617426_131612799_131608171_131603542_131598911_131594280_131589647_131585014_131580379_131575743_131571105_131566467_131561828_131557187_131552545_131547903_131543259_131538614_131533967_131529320_131524672,
  131520022_131515371_131510719_131506066_131501412_131496757_131492100_131487443_131482784_131478124_131473464_131468802_131464138_131459474_131454809_131450142_131445474_131440806_131436136_131431465_131426792_131422119_131417445_131412769_131408092_131403414_131398736_131394055_131389374_131384692_131380008_131375324_131370638_131365951_131361263_131356574_131351884_131347193_131342500_131337807_131333112_131328416_131323719_131319021_131314322_131309622_131304920_131300218_131295514_131290809_131286104_131281397_131276688_131271979_131267269_131262557_131257845_131253131_131248416_131243700_131238983_131234265_131229545_131224825_131220103_131215381_131210657_131205932_131201206_131196479_131191751_131187021_131182291_131177559_131172826_131168093_131163358_131158622_131153884_131149146_131144407_131139666_131134924_131130182_131125438_131120693_131115947_131111200_131106451_131101702_131096951_131092200_131087447_131082693_131077938_131073182_131068425_131063666_131058907_131054146_131049385_131044622_131039858_131035093_131030327_131025560_131020792_131016022_131011252_131006480_131001707_130996934_130992159_130987383_130982605_130977827_130973048_130968267_130963486_130958703_130953919_130949134_130944348_130939561_130934773_130929984_130925193_130920402_130915609_130910816_130906021_130901225_130896428_130891630_130886830_130882030_130877229_130872426_130867623_130862818_130858012_130853205_130848397_130843588_130838778_130833966_130829154_130824340_130819526_130814710_130809893_130805075_130800256_130795436_130790615_130785792_130780969_130776145_130771319_130766492_130761664_130756835_130752005_130747174_130742342_130737509_130732675_130727839_130723003_130718165_130713326_130708486_130703645_130698803_130693960_130689116_130684271_130679424_130674577_130669728_130664878_130660028_130655176_130650323_130645469_130640614_130635757_130630900_130626042_130621182_130616322_130611460_130606597_130601733_130596868_130592002_130587135_130582267_130577398_130572527_130567656_130562783_130557910_130553035_130548159_130543282_130538404_130533525_130528645_130523764_130518881_130513998_130509113_130504228_130499341_130494453_130489565_130484675_130479784_130474892_130469998_130465104_130460209_130455312_130450415_130445516_130440617_130435716_130430814_130425911_130421007_130416102_130411196_130406289_130401380_130396471_130391560_130386649_130381736_130376823_130371908_130366992_130362075_130357157_130352238_130347318_130342396_130337474_130332551_130327626_130322701_130317774_130312846_130307918_130302988_130298057,
  130293125_130288192_130283257_130278322_130273386_130268449_130263510_130258571_130253630_130248688_130243746_130238802_130233857_130228911_130223964_130219016_130214067_130209116_130204165_130199213_130194259_130189305_130184349_130179392_130174435_130169476_130164516_130159555_130154593_130149630_130144666_130139700_130134734_130129767_130124798_130119829_130114858_130109887_130104914_130099940_130094965_130089990_130085013_130080035_130075056_130070075_130065094_130060112_130055129_130050144_130045159_130040172_130035185_130030196_130025206_130020215_130015223_130010231_130005237_130000242_129995245_129990248_129985250_129980251_129975251_129970249_129965247_129960243_129955239_129950233_129945226_129940218_129935210_129930200_129925189_129920177_129915164_129910150_129905135_129900118_129895101_129890083_129885063_129880043_129875021_129869999_129864975_129859951_129854925_129849898_129844870_129839841_129834811_129829780_129824748_129819715_129814681_129809646_129804610_129799572_129794534_129789495_129784454_129779413_129774370_129769326_129764282_129759236_129754189_129749141_129744092_129739042_129733992_129728939_129723886_129718832_129713777_129708721_129703664_129698605_129693546_129688486_129683424_129678362_129673298_129668233_129663168_129658101_129653033_129647965_129642895_129637824_129632752_129627679_129622605_129617530_129612454_129607377_129602298_129597219_129592139_129587058_129581975_129576892_129571807_129566722_129561635_129556548_129551459_129546369_129541279_129536187_129531094_129526000_129520906_129515810_129510713_129505615_129500516_129495416_129490315_129485212_129480109_129475005_129469900_129464794_129459686_129454578_129449468_129444358_129439247_129434134_129429020_129423906_129418790_129413674_129408556_129403437_129398317_129393197_129388075_129382952_129377828_129372703_129367577_129362450_129357322_129352193_129347063_129341932_129336800_129331667_129326532_129321397_129316261_129311124_129305985_129300846_129295705_129290564_129285422_129280278_129275133_129269988_129264841_129259694_129254545_129249395_129244245_129239093_129233940_129228787_129223632_129218476_129213319_129208161_129203002_129197842_129192681_129187519_129182356_129177192_129172027_129166861_129161694_129156526_129151357_129146187_129141015_129135843_129130670_129125496_129120320_129115144_129109967_129104788_129099609_129094429_129089247_129084065_129078881_129073697_129068511_129063325_129058137_129052949_129047759_129042569_129037377_129032184_129026991_129021796_129016600_129011404_129006206_129001007,
  128995807_128990607_128985405_128980202_128974998_128969793_128964587_128959381_128954173_128948964_128943754_128938543_128933331_128928118_128922904_128917689_128912473_128907256_128902038_128896819_128891599_128886378_128881156_128875933_128870709_128865484_128860257_128855030_128849802_128844573_128839343_128834112_128828880_128823646_128818412_128813177_128807941_128802704_128797465_128792226_128786986_128781745_128776502_128771259_128766015_128760769_128755523_128750276_128745028_128739778_128734528_128729277_128724024_128718771_128713517_128708261_128703005_128697748_128692489_128687230_128681970_128676708_128671446_128666183_128660918_128655653_128650387_128645119_128639851_128634581_128629311_128624040_128618767_128613494_128608220_128602944_128597668_128592390_128587112_128581833_128576552_128571271_128565989_128560705_128555421_128550136_128544849_128539562_128534274_128528984_128523694_128518403_128513110_128507817_128502523_128497227_128491931_128486634_128481335_128476036_128470736_128465435_128460132_128454829_128449525_128444220_128438913_128433606_128428298_128422989_128417678_128412367_128407055_128401742_128396428_128391113_128385796_128380479_128375161_128369842_128364522_128359201_128353879_128348556_128343232_128337907_128332581_128327253_128321925_128316596_128311266_128305936_128300604_128295271_128289937_128284602_128279266_128273929_128268591_128263252_128257912_128252572_128247230_128241887_128236543_128231198_128225853_128220506_128215158_128209810_128204460_128199109_128193758_128188405_128183051_128177697_128172341_128166985_128161627_128156269_128150909_128145549_128140187_128134825_128129461_128124097_128118732_128113365_128107998_128102630_128097261_128091890_128086519_128081147_128075774_128070400_128065024_128059648_128054271_128048893_128043514_128038134_128032753_128027371_128021988_128016604_128011219_128005834_128000447_127995059_127989670_127984280_127978890_127973498_127968105_127962712_127957317_127951922_127946525_127941128_127935729_127930330_127924929_127919528_127914125_127908722_127903318_127897912_127892506_127887099_127881691_127876282_127870872_127865460_127860048_127854635_127849221_127843806_127838391_127832974_127827556_127822137_127816717_127811297_127805875_127800452_127795028_127789604_127784178_127778752_127773324_127767896_127762466_127757036_127751605_127746172_127740739_127735305_127729870_127724434_127718996_127713558_127708119_127702679_127697238_127691796_127686354_127680910_127675465_127670019_127664572_127659125_127653676_127648227_127642776_127637324,
  127631872_127626419_127620964_127615509_127610053_127604595_127599137_127593678_127588218_127582757_127577295_127571832_127566368_127560903_127555437_127549970_127544503_127539034_127533564_127528094_127522622_127517150_127511676_127506202_127500726_127495250_127489773_127484294_127478815_127473335_127467854_127462372_127456889_127451405_127445920_127440434_127434948_127429460_127423971_127418482_127412991_127407500_127402007_127396514_127391019_127385524_127380028_127374531_127369032_127363533_127358033_127352532_127347030_127341528_127336024_127330519_127325013_127319507_127313999_127308490_127302981_127297471_127291959_127286447_127280934_127275419_127269904_127264388_127258871_127253353_127247834_127242314_127236794_127231272_127225749_127220226_127214701_127209176_127203649_127198122_127192594_127187064_127181534_127176003_127170471_127164938_127159404_127153869_127148333_127142797_127137259_127131720_127126181_127120640_127115099_127109557_127104013_127098469_127092924_127087378_127081831_127076283_127070734_127065184_127059633_127054082_127048529_127042976_127037421_127031866_127026309_127020752_127015194_127009635_127004075_126998514_126992952_126987389_126981825_126976260_126970695_126965128_126959561_126953992_126948423_126942853_126937281_126931709_126926136_126920562_126914987_126909411_126903835_126898257_126892678_126887099_126881518_126875937_126870354_126864771_126859187_126853602_126848016_126842429_126836841_126831252_126825662_126820072_126814480_126808888_126803294_126797700_126792105_126786508_126780911_126775313_126769714_126764115_126758514_126752912_126747309_126741706_126736101_126730496_126724890_126719283_126713674_126708065_126702455_126696844_126691233_126685620_126680006_126674392_126668776_126663160_126657543_126651924_126646305_126640685_126635064_126629442_126623819_126618196_126612571_126606946_126601319_126595692_126590063_126584434_126578804_126573173_126567541_126561908_126556275_126550640_126545004_126539368_126533730_126528092_126522453_126516813_126511172_126505530_126499887_126494243_126488598_126482953_126477306_126471659_126466011_126460361_126454711_126449060_126443408_126437756_126432102_126426447_126420792_126415135_126409478_126403819_126398160_126392500_126386839_126381177_126375514_126369851_126364186_126358521_126352854_126347187_126341519_126335849_126330179_126324509_126318837_126313164_126307490_126301816_126296140_126290464_126284787_126279109_126273430_126267750_126262069_126256387_126250704_126245021_126239336_126233651_126227965_126222278_126216590_126210901,
  126205211_126199520_126193829_126188136_126182443_126176748_126171053_126165357_126159660_126153962_126148264_126142564_126136863_126131162_126125459_126119756_126114052_126108347_126102641_126096934_126091227_126085518_126079809_126074098_126068387_126062675_126056962_126051248_126045533_126039817_126034101_126028383_126022665_126016945_126011225_126005504_125999782_125994059_125988336_125982611_125976885_125971159_125965432_125959704_125953975_125948245_125942514_125936782_125931049_125925316_125919582_125913846_125908110_125902373_125896635_125890897_125885157_125879416_125873675_125867933_125862189_125856445_125850700_125844954_125839208_125833460_125827712_125821962_125816212_125810461_125804709_125798956_125793202_125787447_125781692_125775936_125770178_125764420_125758661_125752901_125747140_125741379_125735616_125729853_125724088_125718323_125712557_125706790_125701022_125695254_125689484_125683713_125677942_125672170_125666397_125660623_125654848_125649072_125643296_125637518_125631740_125625961_125620181_125614400_125608618_125602835_125597052_125591267_125585482_125579696_125573909_125568121_125562332_125556543_125550752_125544961_125539168_125533375_125527581_125521786_125515991_125510194_125504397_125498598_125492799_125486999_125481198_125475396_125469594_125463790_125457986_125452180_125446374_125440567_125434759_125428951_125423141_125417331_125411519_125405707_125399894_125394080_125388265_125382450_125376633_125370816_125364998_125359179_125353359_125347538_125341716_125335894_125330070_125324246_125318421_125312595_125306768_125300940_125295112_125289282_125283452_125277621_125271789_125265956_125260123_125254288_125248453_125242616_125236779_125230941_125225102_125219263_125213422_125207581_125201738_125195895_125190051_125184206_125178361_125172514_125166667_125160819_125154969_125149119_125143269_125137417_125131564_125125711_125119857_125114002_125108146_125102289_125096431_125090573_125084714_125078854_125072992_125067131_125061268_125055404_125049540_125043675_125037808_125031941_125026074_125020205_125014335_125008465_125002594_124996722_124990849_124984975_124979101_124973225_124967349_124961472_124955594_124949715_124943835_124937955_124932073_124926191_124920308_124914424_124908539_124902654_124896767_124890880_124884992_124879103_124873213_124867323_124861431_124855539_124849646_124843752_124837857_124831961_124826065_124820167_124814269_124808370_124802470_124796569_124790668_124784765_124778862_124772958_124767053_124761148_124755241_124749334_124743425_124737516_124731606_124725695,
  124719784_124713871_124707958_124702044_124696129_124690213_124684297_124678379_124672461_124666542_124660622_124654701_124648779_124642857_124636934_124631010_124625085_124619159_124613232_124607305_124601377_124595447_124589518_124583587_124577655_124571723_124565790_124559855_124553921_124547985_124542048_124536111_124530173_124524234_124518294_124512353_124506411_124500469_124494526_124488582_124482637_124476691_124470745_124464798_124458849_124452900_124446951_124441000_124435049_124429096_124423143_124417189_124411235_124405279_124399323_124393365_124387407_124381449_124375489_124369528_124363567_124357605_124351642_124345678_124339714_124333748_124327782_124321815_124315847_124309878_124303909_124297938_124291967_124285995_124280022_124274049_124268074_124262099_124256123_124250146_124244169_124238190_124232211_124226231_124220250_124214268_124208285_124202302_124196318_124190333_124184347_124178360_124172373_124166384_124160395_124154405_124148415_124142423_124136431_124130438_124124444_124118449_124112453_124106457_124100460_124094461_124088463_124082463_124076463_124070461_124064459_124058456_124052453_124046448_124040443_124034437_124028430_124022422_124016413_124010404_124004394_123998383_123992371_123986359_123980345_123974331_123968316_123962300_123956284_123950266_123944248_123938229_123932209_123926188_123920167_123914145_123908122_123902098_123896073_123890048_123884021_123877994_123871967_123865938_123859908_123853878_123847847_123841815_123835783_123829749_123823715_123817680_123811644_123805607_123799570_123793532_123787493_123781453_123775412_123769371_123763328_123757285_123751241_123745197_123739151_123733105_123727058_123721010_123714962_123708912_123702862_123696811_123690759_123684707_123678653_123672599_123666544_123660488_123654432_123648374_123642316_123636257_123630198_123624137_123618076_123612014_123605951_123599887_123593823_123587757_123581691_123575624_123569557_123563488_123557419_123551349_123545278_123539207_123533134_123527061_123520987_123514913_123508837_123502761_123496684_123490606_123484527_123478448_123472367_123466286_123460205_123454122_123448039_123441954_123435869_123429784_123423697_123417610_123411522_123405433_123399343_123393253_123387162_123381070_123374977_123368883_123362789_123356694_123350598_123344501_123338404_123332306_123326207_123320107_123314006_123307905_123301803_123295700_123289596_123283492_123277386_123271280_123265173_123259066_123252957_123246848_123240738_123234628_123228516_123222404_123216291_123210177_123204063_123197947_123191831_123185714,
  123179596_123173478_123167359_123161239_123155118_123148996_123142874_123136751_123130627_123124503_123118377_123112251_123106124_123099996_123093868_123087739_123081609_123075478_123069346_123063214_123057081_123050947_123044812_123038677_123032541_123026404_123020266_123014127_123007988_123001848_122995707_122989566_122983423_122977280_122971136_122964992_122958846_122952700_122946553_122940406_122934257_122928108_122921958_122915807_122909656_122903504_122897350_122891197_122885042_122878887_122872731_122866574_122860416_122854258_122848099_122841939_122835778_122829617_122823455_122817292_122811128_122804964_122798798_122792632_122786466_122780298_122774130_122767961_122761791_122755621_122749449_122743277_122737105_122730931_122724757_122718582_122712406_122706229_122700052_122693874_122687695_122681515_122675335_122669154_122662972_122656789_122650606_122644422_122638237_122632051_122625865_122619678_122613490_122607301_122601112_122594922_122588731_122582539_122576347_122570154_122563960_122557765_122551570_122545374_122539177_122532979_122526781_122520582_122514382_122508181_122501980_122495778_122489575_122483371_122477167_122470962_122464756_122458549_122452342_122446134_122439925_122433715_122427505_122421294_122415082_122408870_122402656_122396442_122390228_122384012_122377796_122371579_122365361_122359142_122352923_122346703_122340482_122334261_122328039_122321816_122315592_122309368_122303142_122296917_122290690_122284462_122278234_122272005_122265776_122259545_122253314_122247083_122240850_122234617_122228383_122222148_122215912_122209676_122203439_122197201_122190963_122184724_122178484_122172243_122166002_122159760_122153517_122147273_122141029_122134784_122128538_122122291_122116044_122109796_122103547_122097298_122091048_122084797_122078545_122072293_122066040_122059786_122053531_122047276_122041020_122034763_122028506_122022247_122015988_122009729_122003468_121997207_121990945_121984683_121978419_121972155_121965891_121959625_121953359_121947092_121940824_121934556_121928287_121922017_121915746_121909475_121903203_121896930_121890657_121884382_121878107_121871832_121865555_121859278_121853000_121846722_121840443_121834163_121827882_121821600_121815318_121809035_121802752_121796467_121790182_121783897_121777610_121771323_121765035_121758746_121752457_121746167_121739876_121733585_121727292_121720999_121714706_121708411_121702116_121695820_121689524_121683227_121676929_121670630_121664331_121658031_121651730_121645428_121639126_121632823_121626519_121620215_121613910_121607604_121601297_121594990,
  121588682_121582374_121576064_121569754_121563443_121557132_121550819_121544507_121538193_121531878_121525563_121519248_121512931_121506614_121500296_121493977_121487658_121481338_121475017_121468696_121462374_121456051_121449727_121443403_121437078_121430752_121424426_121418099_121411771_121405442_121399113_121392783_121386453_121380121_121373789_121367456_121361123_121354789_121348454_121342118_121335782_121329445_121323107_121316769_121310430_121304090_121297750_121291409_121285067_121278724_121272381_121266037_121259692_121253347_121247001_121240654_121234306_121227958_121221609_121215260_121208909_121202559_121196207_121189854_121183501_121177148_121170793_121164438_121158082_121151726_121145368_121139010_121132652_121126292_121119932_121113572_121107210_121100848_121094485_121088122_121081758_121075393_121069027_121062661_121056294_121049926_121043558_121037189_121030819_121024449_121018078_121011706_121005334_120998960_120992586_120986212_120979837_120973461_120967084_120960707_120954329_120947950_120941571_120935191_120928810_120922428_120916046_120909664_120903280_120896896_120890511_120884125_120877739_120871352_120864965_120858576_120852187_120845798_120839407_120833016_120826625_120820232_120813839_120807445_120801051_120794656_120788260_120781863_120775466_120769068_120762670_120756271_120749871_120743470_120737069_120730667_120724264_120717861_120711457_120705052_120698647_120692241_120685834_120679427_120673019_120666610_120660201_120653791_120647380_120640968_120634556_120628143_120621730_120615316_120608901_120602485_120596069_120589652_120583235_120576817_120570398_120563978_120557558_120551137_120544716_120538293_120531871_120525447_120519023_120512598_120506172_120499746_120493319_120486891_120480463_120474034_120467604_120461174_120454743_120448312_120441879_120435446_120429013_120422578_120416143_120409708_120403271_120396834_120390397_120383959_120377520_120371080_120364640_120358199_120351757_120345315_120338872_120332428_120325984_120319539_120313093_120306647_120300200_120293752_120287304_120280855_120274405_120267955_120261504_120255053_120248600_120242147_120235694_120229240_120222785_120216329_120209873_120203416_120196958_120190500_120184041_120177582_120171122_120164661_120158199_120151737_120145274_120138811_120132347_120125882_120119416_120112950_120106484_120100016_120093548_120087079_120080610_120074140_120067669_120061198_120054726_120048253_120041780_120035306_120028831_120022356_120015880_120009403_120002926_119996448_119989970_119983491_119977011_119970530_119964049_119957567,
  119951085_119944602_119938118_119931634_119925149_119918663_119912177_119905689_119899202_119892714_119886225_119879735_119873245_119866754_119860262_119853770_119847277_119840784_119834290_119827795_119821299_119814803_119808307_119801809_119795311_119788813_119782313_119775813_119769313_119762812_119756310_119749807_119743304_119736800_119730296_119723791_119717285_119710779_119704272_119697764_119691256_119684747_119678237_119671727_119665216_119658705_119652193_119645680_119639166_119632652_119626138_119619622_119613106_119606590_119600072_119593555_119587036_119580517_119573997_119567477_119560956_119554434_119547912_119541389_119534865_119528341_119521816_119515290_119508764_119502237_119495710_119489182_119482653_119476124_119469594_119463063_119456532_119450000_119443468_119436935_119430401_119423867_119417332_119410796_119404260_119397723_119391185_119384647_119378108_119371569_119365029_119358488_119351947_119345405_119338862_119332319_119325775_119319231_119312686_119306140_119299594_119293047_119286499_119279951_119273402_119266853_119260303_119253752_119247201_119240649_119234096_119227543_119220989_119214435_119207880_119201324_119194767_119188211_119181653_119175095_119168536_119161977_119155416_119148856_119142294_119135733_119129170_119122607_119116043_119109479_119102914_119096348_119089782_119083215_119076647_119070079_119063510_119056941_119050371_119043801_119037229_119030658_119024085_119017512_119010938_119004364_118997789_118991214_118984638_118978061_118971483_118964905_118958327_118951748_118945168_118938587_118932006_118925425_118918842_118912259_118905676_118899092_118892507_118885922_118879336_118872749_118866162_118859574_118852986_118846397_118839807_118833217_118826626_118820035_118813443_118806850_118800257_118793663_118787068_118780473_118773878_118767281_118760684_118754087_118747489_118740890_118734291_118727691_118721090_118714489_118707887_118701285_118694682_118688078_118681474_118674869_118668264_118661658_118655051_118648444_118641836_118635228_118628619_118622009_118615399_118608788_118602177_118595565_118588952_118582339_118575725_118569111_118562496_118555880_118549264_118542647_118536030_118529412_118522793_118516174_118509554_118502934_118496313_118489691_118483069_118476446_118469823_118463199_118456574_118449949_118443323_118436697_118430070_118423442_118416814_118410185_118403556_118396926_118390295_118383664_118377033_118370400_118363767_118357134_118350500_118343865_118337230_118330594_118323957_118317320_118310683_118304044_118297406_118290766_118284126_118277486,
  118270844_118264203_118257560_118250917_118244274_118237630_118230985_118224340_118217694_118211047_118204400_118197753_118191104_118184456_118177806_118171156_118164506_118157854_118151203_118144550_118137897_118131244_118124590_118117935_118111280_118104624_118097968_118091311_118084653_118077995_118071336_118064677_118058017_118051356_118044695_118038033_118031371_118024708_118018045_118011381_118004716_117998051_117991386_117984719_117978052_117971385_117964717_117958048_117951379_117944709_117938039_117931368_117924696_117918024_117911352_117904678_117898005_117891330_117884655_117877980_117871304_117864627_117857950_117851272_117844593_117837914_117831235_117824555_117817874_117811193_117804511_117797828_117791145_117784462_117777778_117771093_117764408_117757722_117751035_117744348_117737661_117730973_117724284_117717595_117710905_117704214_117697524_117690832_117684140_117677447_117670754_117664060_117657366_117650671_117643975_117637279_117630582_117623885_117617187_117610489_117603790_117597091_117590391_117583690_117576989_117570287_117563585_117556882_117550178_117543474_117536770_117530065_117523359_117516653_117509946_117503238_117496531_117489822_117483113_117476403_117469693_117462982_117456271_117449559_117442847_117436134_117429420_117422706_117415991_117409276_117402560_117395844_117389127_117382410_117375692_117368973_117362254_117355534_117348814_117342093_117335372_117328650_117321928_117315205_117308481_117301757_117295032_117288307_117281581_117274855_117268128_117261400_117254672_117247944_117241215_117234485_117227755_117221024_117214293_117207561_117200828_117194095_117187362_117180628_117173893_117167158_117160422_117153686_117146949_117140212_117133474_117126735_117119996_117113257_117106517_117099776_117093035_117086293_117079551_117072808_117066065_117059321_117052576_117045831_117039085_117032339_117025593_117018845_117012098_117005349_116998601_116991851_116985101_116978351_116971600_116964848_116958096_116951343_116944590_116937836_116931082_116924327_116917572_116910816_116904060_116897303_116890545_116883787_116877028_116870269_116863510_116856749_116849989_116843227_116836465_116829703_116822940_116816177_116809413_116802648_116795883_116789117_116782351_116775585_116768817_116762050_116755281_116748513_116741743_116734973_116728203_116721432_116714660_116707888_116701116_116694343_116687569_116680795_116674020_116667245_116660469_116653693_116646916_116640139_116633361_116626582_116619804_116613024_116606244_116599464_116592682_116585901_116579119_116572336_116565553_116558769,
  116551985_116545200_116538415_116531629_116524843_116518056_116511268_116504480_116497692_116490903_116484113_116477323_116470533_116463742_116456950_116450158_116443365_116436572_116429778_116422984_116416189_116409394_116402598_116395802_116389005_116382208_116375410_116368611_116361813_116355013_116348213_116341413_116334612_116327810_116321008_116314205_116307402_116300599_116293794_116286990_116280185_116273379_116266573_116259766_116252959_116246151_116239343_116232534_116225724_116218915_116212104_116205293_116198482_116191670_116184858_116178045_116171231_116164417_116157603_116150788_116143972_116137156_116130340_116123523_116116705_116109887_116103068_116096249_116089430_116082610_116075789_116068968_116062146_116055324_116048501_116041678_116034854_116028030_116021205_116014380_116007554_116000728_115993901_115987074_115980246_115973418_115966589_115959760_115952930_115946100_115939269_115932438_115925606_115918773_115911940_115905107_115898273_115891439_115884604_115877769_115870933_115864096_115857259_115850422_115843584_115836746_115829907_115823067_115816227_115809387_115802546_115795705_115788863_115782020_115775177_115768334_115761490_115754646_115747801_115740955_115734109_115727263_115720416_115713568_115706721_115699872_115693023_115686174_115679324_115672473_115665622_115658771_115651919_115645067_115638214_115631360_115624506_115617652_115610797_115603942_115597086_115590230_115583373_115576515_115569657_115562799_115555940_115549081_115542221_115535361_115528500_115521639_115514777_115507914_115501052_115494188_115487325_115480460_115473595_115466730_115459865_115452998_115446132_115439264_115432397_115425528_115418660_115411791_115404921_115398051_115391180_115384309_115377437_115370565_115363693_115356820_115349946_115343072_115336198_115329322_115322447_115315571_115308695_115301818_115294940_115288062_115281184_115274305_115267425_115260546_115253665_115246784_115239903_115233021_115226139_115219256_115212373_115205489_115198605_115191720_115184835_115177950_115171063_115164177_115157290_115150402_115143514_115136626_115129737_115122847_115115957_115109067_115102176_115095284_115088392_115081500_115074607_115067714_115060820_115053926_115047031_115040136_115033240_115026344_115019447_115012550_115005653_114998755_114991856_114984957_114978058_114971158_114964257_114957356_114950455_114943553_114936651_114929748_114922845_114915941_114909037_114902132_114895227_114888321_114881415_114874508_114867601_114860694_114853786_114846877_114839968_114833059_114826149_114819239_114812328_114805417,
  114798505_114791593_114784680_114777767_114770853_114763939_114757025_114750110_114743194_114736278_114729362_114722445_114715528_114708610_114701692_114694773_114687854_114680934_114674014_114667093_114660172_114653251_114646329_114639406_114632483_114625560_114618636_114611712_114604787_114597862_114590936_114584010_114577084_114570157_114563229_114556301_114549373_114542444_114535515_114528585_114521654_114514724_114507793_114500861_114493929_114486996_114480063_114473130_114466196_114459261_114452327_114445391_114438456_114431519_114424583_114417646_114410708_114403770_114396832_114389893_114382953_114376013_114369073_114362132_114355191_114348250_114341307_114334365_114327422_114320478_114313534_114306590_114299645_114292700_114285754_114278808_114271862_114264915_114257967_114251019_114244071_114237122_114230172_114223223_114216272_114209322_114202371_114195419_114188467_114181515_114174562_114167609_114160655_114153701_114146746_114139791_114132835_114125879_114118923_114111966_114105008_114098051_114091092_114084134_114077175_114070215_114063255_114056295_114049334_114042372_114035411_114028448_114021486_114014523_114007559_114000595_113993631_113986666_113979700_113972735_113965769_113958802_113951835_113944867_113937899_113930931_113923962_113916993_113910023_113903053_113896083_113889112_113882140_113875168_113868196_113861223_113854250_113847276_113840302_113833328_113826353_113819378_113812402_113805426_113798449_113791472_113784494_113777516_113770538_113763559_113756580_113749600_113742620_113735639_113728658_113721677_113714695_113707713_113700730_113693747_113686763_113679779_113672795_113665810_113658825_113651839_113644853_113637866_113630879_113623892_113616904_113609916_113602927_113595938_113588948_113581958_113574968_113567977_113560986_113553994_113547002_113540009_113533016_113526023_113519029_113512035_113505040_113498045_113491049_113484053_113477057_113470060_113463063_113456065_113449067_113442069_113435070_113428070_113421071_113414070_113407070_113400069_113393067_113386065_113379063_113372060_113365057_113358054_113351050_113344045_113337041_113330035_113323030_113316024_113309017_113302010_113295003_113287995_113280987_113273979_113266970_113259960_113252950_113245940_113238930_113231919_113224907_113217895_113210883_113203870_113196857_113189843_113182830_113175815_113168800_113161785_113154770_113147754_113140737_113133720_113126703_113119685_113112667_113105649_113098630_113091611_113084591_113077571_113070550_113063529_113056508_113049486_113042464_113035441_113028418_113021395,
  113014371_113007347_113000322_112993297_112986272_112979246_112972220_112965193_112958166_112951139_112944111_112937082_112930054_112923025_112915995_112908965_112901935_112894904_112887873_112880842_112873810_112866777_112859745_112852711_112845678_112838644_112831610_112824575_112817540_112810504_112803468_112796432_112789395_112782358_112775321_112768283_112761244_112754206_112747166_112740127_112733087_112726047_112719006_112711965_112704923_112697881_112690839_112683796_112676753_112669710_112662666_112655621_112648577_112641532_112634486_112627440_112620394_112613347_112606300_112599253_112592205_112585157_112578108_112571059_112564009_112556960_112549909_112542859_112535808_112528756_112521705_112514652_112507600_112500547_112493493_112486440_112479386_112472331_112465276_112458221_112451165_112444109_112437053_112429996_112422939_112415881_112408823_112401764_112394706_112387646_112380587_112373527_112366467_112359406_112352345_112345283_112338221_112331159_112324096_112317033_112309970_112302906_112295842_112288777_112281712_112274647_112267581_112260515_112253449_112246382_112239315_112232247_112225179_112218110_112211042_112203972_112196903_112189833_112182763_112175692_112168621_112161549_112154478_112147405_112140333_112133260_112126186_112119113_112112039_112104964_112097889_112090814_112083738_112076662_112069586_112062509_112055432_112048355_112041277_112034199_112027120_112020041_112012962_112005882_111998802_111991721_111984640_111977559_111970477_111963395_111956313_111949230_111942147_111935064_111927980_111920896_111913811_111906726_111899641_111892555_111885469_111878382_111871296_111864208_111857121_111850033_111842945_111835856_111828767_111821677_111814588_111807498_111800407_111793316_111786225_111779133_111772041_111764949_111757856_111750763_111743670_111736576_111729482_111722387_111715292_111708197_111701101_111694005_111686909_111679812_111672715_111665618_111658520_111651422_111644323_111637224_111630125_111623025_111615925_111608825_111601724_111594623_111587522_111580420_111573318_111566215_111559112_111552009_111544905_111537801_111530697_111523592_111516487_111509382_111502276_111495170_111488063_111480957_111473849_111466742_111459634_111452526_111445417_111438308_111431199_111424089_111416979_111409869_111402758_111395647_111388535_111381423_111374311_111367199_111360086_111352973_111345859_111338745_111331631_111324516_111317401_111310286_111303170_111296054_111288938_111281821_111274704_111267586_111260468_111253350_111246232_111239113_111231994_111224874_111217754_111210634,
  111203513_111196392_111189271_111182150_111175028_111167905_111160783_111153659_111146536_111139412_111132288_111125164_111118039_111110914_111103789_111096663_111089537_111082410_111075283_111068156_111061029_111053901_111046772_111039644_111032515_111025386_111018256_111011126_111003996_110996865_110989734_110982603_110975471_110968339_110961207_110954074_110946941_110939808_110932674_110925540_110918406_110911271_110904136_110897001_110889865_110882729_110875593_110868456_110861319_110854182_110847044_110839906_110832767_110825629_110818490_110811350_110804210_110797070_110789930_110782789_110775648_110768507_110761365_110754223_110747080_110739938_110732794_110725651_110718507_110711363_110704219_110697074_110689929_110682783_110675638_110668492_110661345_110654198_110647051_110639904_110632756_110625608_110618460_110611311_110604162_110597012_110589863_110582713_110575562_110568412_110561261_110554109_110546958_110539806_110532653_110525501_110518348_110511194_110504041_110496887_110489732_110482578_110475423_110468267_110461112_110453956_110446800_110439643_110432486_110425329_110418171_110411014_110403855_110396697_110389538_110382379_110375219_110368060_110360900_110353739_110346578_110339417_110332256_110325094_110317932_110310770_110303607_110296444_110289281_110282117_110274953_110267789_110260624_110253459_110246294_110239129_110231963_110224797_110217630_110210463_110203296_110196129_110188961_110181793_110174624_110167456_110160287_110153117_110145948_110138778_110131607_110124437_110117266_110110095_110102923_110095751_110088579_110081407_110074234_110067061_110059887_110052714_110045540_110038365_110031191_110024016_110016840_110009665_110002489_109995313_109988136_109980959_109973782_109966605_109959427_109952249_109945071_109937892_109930713_109923534_109916354_109909174_109901994_109894814_109887633_109880452_109873270_109866088_109858906_109851724_109844541_109837358_109830175_109822992_109815808_109808623_109801439_109794254_109787069_109779884_109772698_109765512_109758326_109751139_109743952_109736765_109729578_109722390_109715202_109708013_109700825_109693636_109686446_109679257_109672067_109664877_109657686_109650495_109643304_109636113_109628921_109621729_109614537_109607344_109600151_109592958_109585765_109578571_109571377_109564182_109556988_109549793_109542598_109535402_109528206_109521010_109513814_109506617_109499420_109492223_109485025_109477827_109470629_109463430_109456232_109449032_109441833_109434633_109427434_109420233_109413033_109405832_109398631_109391429_109384228_109377026,
  109369823_109362621_109355418_109348215_109341011_109333808_109326604_109319399_109312195_109304990_109297785_109290579_109283374_109276168_109268961_109261755_109254548_109247341_109240133_109232926_109225718_109218509_109211301_109204092_109196883_109189673_109182463_109175253_109168043_109160833_109153622_109146411_109139199_109131987_109124775_109117563_109110351_109103138_109095925_109088711_109081498_109074284_109067069_109059855_109052640_109045425_109038210_109030994_109023778_109016562_109009345_109002129_108994912_108987694_108980477_108973259_108966041_108958822_108951604_108944385_108937166_108929946_108922726_108915506_108908286_108901065_108893844_108886623_108879402_108872180_108864958_108857736_108850513_108843290_108836067_108828844_108821620_108814396_108807172_108799948_108792723_108785498_108778273_108771047_108763822_108756596_108749369_108742143_108734916_108727689_108720461_108713233_108706005_108698777_108691549_108684320_108677091_108669862_108662632_108655402_108648172_108640942_108633711_108626480_108619249_108612018_108604786_108597554_108590322_108583089_108575857_108568624_108561390_108554157_108546923_108539689_108532455_108525220_108517985_108510750_108503515_108496279_108489043_108481807_108474570_108467334_108460097_108452860_108445622_108438384_108431146_108423908_108416670_108409431_108402192_108394952_108387713_108380473_108373233_108365993_108358752_108351511_108344270_108337029_108329787_108322545_108315303_108308061_108300818_108293575_108286332_108279089_108271845_108264601_108257357_108250112_108242868_108235623_108228378_108221132_108213887_108206641_108199394_108192148_108184901_108177654_108170407_108163160_108155912_108148664_108141416_108134167_108126919_108119670_108112420_108105171_108097921_108090671_108083421_108076170_108068920_108061669_108054418_108047166_108039914_108032662_108025410_108018158_108010905_108003652_107996399_107989146_107981892_107974638_107967384_107960129_107952875_107945620_107938365_107931109_107923854_107916598_107909342_107902085_107894829_107887572_107880315_107873057_107865800_107858542_107851284_107844025_107836767_107829508_107822249_107814990_107807730_107800471_107793211_107785950_107778690_107771429_107764168_107756907_107749645_107742384_107735122_107727860_107720597_107713335_107706072_107698809_107691545_107684282_107677018_107669754_107662490_107655225_107647960_107640695_107633430_107626165_107618899_107611633_107604367_107597101_107589834_107582567_107575300_107568033_107560765_107553497_107546229_107538961_107531693_107524424,
  107517155_107509886_107502616_107495347_107488077_107480807_107473536_107466266_107458995_107451724_107444453_107437181_107429909_107422637_107415365_107408093_107400820_107393547_107386274_107379001_107371727_107364454_107357180_107349905_107342631_107335356_107328081_107320806_107313531_107306255_107298980_107291704_107284427_107277151_107269874_107262597_107255320_107248043_107240765_107233487_107226209_107218931_107211653_107204374_107197095_107189816_107182536_107175257_107167977_107160697_107153417_107146136_107138856_107131575_107124294_107117012_107109731_107102449_107095167_107087885_107080602_107073320_107066037_107058754_107051470_107044187_107036903_107029619_107022335_107015051_107007766_107000481_106993196_106985911_106978625_106971340_106964054_106956768_106949481_106942195_106934908_106927621_106920334_106913047_106905759_106898471_106891183_106883895_106876607_106869318_106862029_106854740_106847451_106840161_106832871_106825582_106818291_106811001_106803711_106796420_106789129_106781838_106774546_106767255_106759963_106752671_106745379_106738086_106730794_106723501_106716208_106708914_106701621_106694327_106687033_106679739_106672445_106665151_106657856_106650561_106643266_106635971_106628675_106621379_106614084_106606787_106599491_106592195_106584898_106577601_106570304_106563006_106555709_106548411_106541113_106533815_106526517_106519218_106511920_106504621_106497321_106490022_106482723_106475423_106468123_106460823_106453522_106446222_106438921_106431620_106424319_106417018_106409716_106402415_106395113_106387811_106380508_106373206_106365903_106358600_106351297_106343994_106336690_106329387_106322083_106314779_106307474_106300170_106292865_106285561_106278256_106270950_106263645_106256339_106249034_106241728_106234421_106227115_106219808_106212502_106205195_106197888_106190580_106183273_106175965_106168657_106161349_106154041_106146732_106139424_106132115_106124806_106117497_106110187_106102878_106095568_106088258_106080948_106073637_106066327_106059016_106051705_106044394_106037083_106029771_106022460_106015148_106007836_106000524_105993211_105985899_105978586_105971273_105963960_105956647_105949333_105942019_105934706_105927391_105920077_105912763_105905448_105898134_105890819_105883503_105876188_105868873_105861557_105854241_105846925_105839609_105832293_105824976_105817659_105810342_105803025_105795708_105788391_105781073_105773755_105766437_105759119_105751801_105744482_105737163_105729845_105722525_105715206_105707887_105700567_105693248_105685928_105678608_105671287_105663967_105656646,
  105649325_105642004_105634683_105627362_105620040_105612719_105605397_105598075_105590753_105583430_105576108_105568785_105561462_105554139_105546816_105539493_105532169_105524846_105517522_105510198_105502873_105495549_105488224_105480900_105473575_105466250_105458925_105451599_105444274_105436948_105429622_105422296_105414970_105407643_105400317_105392990_105385663_105378336_105371009_105363681_105356354_105349026_105341698_105334370_105327042_105319713_105312385_105305056_105297727_105290398_105283069_105275740_105268410_105261081_105253751_105246421_105239091_105231760_105224430_105217099_105209768_105202437_105195106_105187775_105180443_105173112_105165780_105158448_105151116_105143784_105136451_105129119_105121786_105114453_105107120_105099787_105092454_105085120_105077787_105070453_105063119_105055785_105048450_105041116_105033781_105026447_105019112_105011777_105004442_104997106_104989771_104982435_104975099_104967763_104960427_104953091_104945754_104938418_104931081_104923744_104916407_104909070_104901733_104894395_104887058_104879720_104872382_104865044_104857705_104850367_104843029_104835690_104828351_104821012_104813673_104806334_104798994_104791655_104784315_104776975_104769635_104762295_104754955_104747614_104740274_104732933_104725592_104718251_104710910_104703568_104696227_104688885_104681544_104674202_104666860_104659517_104652175_104644833_104637490_104630147_104622804_104615461_104608118_104600775_104593431_104586088_104578744_104571400_104564056_104556712_104549367_104542023_104534678_104527334_104519989_104512644_104505299_104497953_104490608_104483262_104475917_104468571_104461225_104453879_104446533_104439186_104431840_104424493_104417146_104409799_104402452_104395105_104387758_104380410_104373063_104365715_104358367_104351019_104343671_104336322_104328974_104321626_104314277_104306928_104299579_104292230_104284881_104277531_104270182_104262832_104255483_104248133_104240783_104233433_104226082_104218732_104211381_104204031_104196680_104189329_104181978_104174627_104167276_104159924_104152573_104145221_104137869_104130517_104123165_104115813_104108461_104101108_104093756_104086403_104079050_104071697_104064344_104056991_104049638_104042284_104034931_104027577_104020223_104012869_104005515_103998161_103990807_103983452_103976098_103968743_103961388_103954033_103946678_103939323_103931968_103924613_103917257_103909901_103902546_103895190_103887834_103880478_103873121_103865765_103858408_103851052_103843695_103836338_103828981_103821624_103814267_103806910_103799552_103792195_103784837_103777479,
  103770121_103762763_103755405_103748047_103740689_103733330_103725972_103718613_103711254_103703895_103696536_103689177_103681818_103674458_103667099_103659739_103652380_103645020_103637660_103630300_103622939_103615579_103608219_103600858_103593498_103586137_103578776_103571415_103564054_103556693_103549332_103541970_103534609_103527247_103519885_103512524_103505162_103497800_103490437_103483075_103475713_103468350_103460988_103453625_103446262_103438899_103431536_103424173_103416810_103409447_103402083_103394720_103387356_103379992_103372629_103365265_103357901_103350536_103343172_103335808_103328443_103321079_103313714_103306349_103298984_103291619_103284254_103276889_103269524_103262158_103254793_103247427_103240062_103232696_103225330_103217964_103210598_103203232_103195865_103188499_103181133_103173766_103166399_103159033_103151666_103144299_103136932_103129564_103122197_103114830_103107462_103100095_103092727_103085359_103077992_103070624_103063256_103055888_103048519_103041151_103033783_103026414_103019046_103011677_103004308_102996939_102989570_102982201_102974832_102967463_102960093_102952724_102945354_102937985_102930615_102923245_102915876_102908506_102901135_102893765_102886395_102879025_102871654_102864284_102856913_102849543_102842172_102834801_102827430_102820059_102812688_102805317_102797945_102790574_102783202_102775831_102768459_102761088_102753716_102746344_102738972_102731600_102724228_102716855_102709483_102702111_102694738_102687366_102679993_102672620_102665247_102657874_102650501_102643128_102635755_102628382_102621009_102613635_102606262_102598888_102591515_102584141_102576767_102569393_102562019_102554645_102547271_102539897_102532523_102525148_102517774_102510399_102503025_102495650_102488275_102480900_102473526_102466151_102458776_102451400_102444025_102436650_102429275_102421899_102414524_102407148_102399772_102392397_102385021_102377645_102370269_102362893_102355517_102348141_102340764_102333388_102326012_102318635_102311259_102303882_102296505_102289129_102281752_102274375_102266998_102259621_102252244_102244867_102237489_102230112_102222735_102215357_102207980_102200602_102193224_102185847_102178469_102171091_102163713_102156335_102148957_102141579_102134201_102126822_102119444_102112066_102104687_102097309_102089930_102082551_102075173_102067794_102060415_102053036_102045657_102038278_102030899_102023520_102016140_102008761_102001382_101994002_101986623_101979243_101971864_101964484_101957104_101949724_101942344_101934964_101927585_101920204_101912824_101905444_101898064_101890684,
  101883303_101875923_101868542_101861162_101853781_101846401_101839020_101831639_101824258_101816878_101809497_101802116_101794735_101787353_101779972_101772591_101765210_101757828_101750447_101743066_101735684_101728303_101720921_101713539_101706158_101698776_101691394_101684012_101676630_101669248_101661866_101654484_101647102_101639720_101632338_101624955_101617573_101610191_101602808_101595426_101588043_101580661_101573278_101565895_101558513_101551130_101543747_101536364_101528981_101521598_101514215_101506832_101499449_101492066_101484683_101477299_101469916_101462533_101455149_101447766_101440382_101432999_101425615_101418231_101410848_101403464_101396080_101388696_101381313_101373929_101366545_101359161_101351777_101344393_101337008_101329624_101322240_101314856_101307472_101300087_101292703_101285318_101277934_101270550_101263165_101255780_101248396_101241011_101233626_101226242_101218857_101211472_101204087_101196702_101189317_101181932_101174547_101167162_101159777_101152392_101145007_101137622_101130237_101122851_101115466_101108081_101100695_101093310_101085924_101078539_101071153_101063768_101056382_101048997_101041611_101034225_101026840_101019454_101012068_101004682_100997296_100989911_100982525_100975139_100967753_100960367_100952981_100945595_100938208_100930822_100923436_100916050_100908664_100901277_100893891_100886505_100879119_100871732_100864346_100856959_100849573_100842186_100834800_100827413_100820027_100812640_100805254_100797867_100790480_100783094_100775707_100768320_100760933_100753546_100746160_100738773_100731386_100723999_100716612_100709225_100701838_100694451_100687064_100679677_100672290_100664903_100657516_100650129_100642742_100635354_100627967_100620580_100613193_100605805_100598418_100591031_100583643_100576256_100568869_100561481_100554094_100546707_100539319_100531932_100524544_100517157_100509769_100502382_100494994_100487607_100480219_100472831_100465444_100458056_100450668_100443281_100435893_100428505_100421118_100413730_100406342_100398954_100391567_100384179_100376791_100369403_100362015_100354628_100347240_100339852_100332464_100325076_100317688_100310300_100302912_100295524_100288137_100280749_100273361_100265973_100258585_100251197_100243809_100236421_100229033_100221644_100214256_100206868_100199480_100192092_100184704_100177316_100169928_100162540_100155152_100147764_100140375_100132987_100125599_100118211_100110823_100103435_100096047_100088658_100081270_100073882_100066494_100059106_100051717_100044329_100036941_100029553_100022165_100014776_100007388_100000000]

/-- `_acg5_vtable`, pmesh/_window_acg.h:6242-8290: 8192 entries. -/
def acg5Rows : List ℕ := [
  133223627_133223626_133223624_133223620_133223614_133223607_133223598_133223587_133223575_133223561_133223546_133223529_133223510_133223490_133223468_133223444_133223419_133223392_133223364_133223334_133223302_133223269_133223234_133223198_133223160_133223120_133223078_133223035_133222991_133222945_133222897_133222847_133222796_133222743_133222689_133222633_133222576_133222516_133222455_133222393_133222329_133222263_133222196_133222127_133222056_133221984_133221910_133221835_133221758_133221679_133221599_133221517_133221433_133221348_133221261_133221173_133221083_133220991_133220898_133220803_133220707_133220608_133220509_133220407_133220304_133220200_133220093_133219985_133219876_133219765_133219652_133219538_133219422_133219304_133219185_133219064_133218942_133218817_133218692_133218564_133218435_133218305_133218173_133218039_133217903_133217766_133217628_133217487_133217345_133217202_133217056_133216910_133216761_133216611_133216460_133216306_133216151_133215995_133215837_133215677_133215515_133215352_133215188_133215022_133214854_133214684_133214513_133214340_133214166_133213990_133213812_133213633_133213452_133213270_133213086_133212900_133212713_133212524_133212333_133212141_133211947_133211751_133211554_133211356_133211155_133210953_133210750_133210545_133210338_133210130_133209919_133209708_133209495_133209280_133209063_133208845_133208625_133208404_133208181_133207956_133207730_133207502_133207273_133207042_133206809_133206574_133206338_133206101_133205862_133205621_133205378_133205134_133204889_133204641_133204392_133204142_133203890_133203636_133203381_133203123_133202865_133202605_133202343_133202079_133201814_133201547_133201279_133201009_133200737_133200464_133200189_133199913_133199635_133199355_133199074_133198791_133198506_133198220_133197932_133197643_133197352_133197059_133196765_133196469_133196171_133195872_133195571_133195269_133194965_133194659_133194352_133194043_133193733_133193421_133193107_133192792_133192475_133192156_133191836_133191514_133191191_133190866_133190539_133190211_133189881_133189549_133189216_133188882_133188545_133188207_133187868_133187526_133187184_133186839_133186493_133186145_133185796_133185445_133185093_133184738_133184383_133184025_133183666_133183305_133182943_133182579_133182214_133181847_133181478_133181108_133180736_133180362_133179987_133179610_133179232_133178852_133178470_133178087_133177702_133177315_133176927_133176537_133176146_133175753_133175358_133174962_133174564_133174165_133173764_133173361_133172957_133172551_133172143_133171734_133171324_133170911,
  133170497_133170082_133169664_133169245_133168825_133168403_133167979_133167554_133167127_133166698_133166268_133165837_133165403_133164968_133164532_133164093_133163653_133163212_133162769_133162324_133161878_133161430_133160980_133160529_133160077_133159622_133159166_133158709_133158249_133157788_133157326_133156862_133156396_133155929_133155460_133154989_133154517_133154044_133153568_133153091_133152613_133152132_133151651_133151167_133150682_133150195_133149707_133149217_133148726_133148233_133147738_133147241_133146744_133146244_133145743_133145240_133144736_133144229_133143722_133143213_133142702_133142189_133141675_133141159_133140642_133140123_133139603_133139080_133138557_133138031_133137504_133136976_133136446_133135914_133135380_133134845_133134309_133133770_133133230_133132689_133132146_133131601_133131055_133130507_133129957_133129406_133128853_133128299_133127743_133127185_133126626_133126065_133125503_133124939_133124373_133123806_133123237_133122666_133122094_133121520_133120945_133120368_133119790_133119209_133118628_133118044_133117459_133116873_133116284_133115695_133115103_133114510_133113916_133113319_133112721_133112122_133111521_133110918_133110314_133109708_133109100_133108491_133107881_133107268_133106654_133106039_133105421_133104803_133104182_133103560_133102937_133102311_133101685_133101056_133100426_133099795_133099161_133098526_133097890_133097252_133096612_133095971_133095328_133094683_133094037_133093390_133092740_133092089_133091437_133090783_133090127_133089470_133088811_133088150_133087488_133086824_133086159_133085492_133084823_133084153_133083481_133082808_133082133_133081456_133080778_133080098_133079416_133078733_133078049_133077362_133076675_133075985_133075294_133074601_133073907_133073211_133072514_133071814_133071114_133070411_133069708_133069002_133068295_133067586_133066876_133066164_133065450_133064735_133064018_133063300_133062580_133061859_133061135_133060411_133059684_133058956_133058227_133057496_133056763_133056028_133055292_133054555_133053816_133053075_133052332_133051588_133050843_133050096_133049347_133048596_133047844_133047091_133046336_133045579_133044820_133044060_133043299_133042536_133041771_133041004_133040236_133039467_133038696_133037923_133037148_133036372_133035595_133034815_133034035_133033252_133032468_133031683_133030895_133030107_133029316_133028524_133027730_133026935_133026138_133025340_133024540_133023738_133022935_133022130_133021324_133020516_133019706_133018895_133018082_133017268_133016452_133015634_133014815_133013994_133013172_133012348,
  133011522_133010695_133009867_133009036_133008204_133007371_133006535_133005699_133004860_133004020_133003179_133002336_133001491_133000645_132999797_132998947_132998096_132997243_132996389_132995533_132994676_132993816_132992956_132992094_132991230_132990364_132989497_132988628_132987758_132986886_132986013_132985138_132984261_132983383_132982503_132981622_132980739_132979854_132978968_132978080_132977191_132976300_132975407_132974513_132973617_132972720_132971821_132970920_132970018_132969114_132968209_132967302_132966394_132965484_132964572_132963659_132962744_132961827_132960909_132959990_132959068_132958146_132957221_132956295_132955368_132954438_132953508_132952575_132951641_132950706_132949769_132948830_132947890_132946948_132946004_132945059_132944112_132943164_132942214_132941263_132940310_132939355_132938399_132937441_132936482_132935521_132934558_132933594_132932628_132931661_132930692_132929722_132928749_132927776_132926801_132925824_132924845_132923865_132922884_132921900_132920916_132919929_132918941_132917952_132916961_132915968_132914974_132913978_132912980_132911981_132910980_132909978_132908974_132907969_132906962_132905953_132904943_132903932_132902918_132901903_132900887_132899869_132898849_132897828_132896805_132895781_132894755_132893727_132892698_132891667_132890635_132889601_132888565_132887528_132886490_132885449_132884408_132883364_132882319_132881273_132880224_132879175_132878123_132877070_132876016_132874960_132873902_132872843_132871782_132870720_132869656_132868590_132867523_132866455_132865384_132864312_132863239_132862164_132861087_132860009_132858929_132857848_132856765_132855681_132854594_132853507_132852418_132851327_132850234_132849140_132848045_132846948_132845849_132844749_132843647_132842543_132841438_132840332_132839224_132838114_132837003_132835890_132834775_132833659_132832542_132831422_132830302_132829179_132828055_132826930_132825803_132824674_132823544_132822412_132821279_132820144_132819007_132817869_132816729_132815588_132814445_132813301_132812155_132811007_132809858_132808707_132807555_132806401_132805246_132804089_132802930_132801770_132800608_132799445_132798280_132797114_132795946_132794776_132793605_132792432_132791258_132790082_132788905_132787726_132786545_132785363_132784179_132782994_132781807_132780619_132779429_132778237_132777044_132775850_132774653_132773455_132772256_132771055_132769852_132768648_132767443_132766235_132765027_132763816_132762604_132761391_132760176_132758959_132757741_132756521_132755300_132754077_132752852_132751626_132750399_132749169,
  132747939_132746706_132745472_132744237_132743000_132741761_132740521_132739279_132738036_132736791_132735545_132734297_132733047_132731796_132730544_132729289_132728034_132726776_132725517_132724257_132722995_132721731_132720466_132719199_132717931_132716661_132715390_132714117_132712842_132711566_132710288_132709009_132707728_132706446_132705162_132703876_132702589_132701301_132700011_132698719_132697425_132696131_132694834_132693536_132692237_132690936_132689633_132688329_132687023_132685716_132684407_132683096_132681784_132680471_132679156_132677839_132676521_132675201_132673880_132672557_132671232_132669906_132668579_132667249_132665919_132664587_132663253_132661917_132660580_132659242_132657902_132656560_132655217_132653873_132652526_132651178_132649829_132648478_132647126_132645772_132644416_132643059_132641700_132640340_132638978_132637615_132636250_132634884_132633516_132632146_132630775_132629402_132628028_132626652_132625275_132623896_132622516_132621134_132619750_132618365_132616978_132615590_132614201_132612809_132611416_132610022_132608626_132607229_132605830_132604429_132603027_132601623_132600218_132598811_132597403_132595993_132594582_132593169_132591754_132590338_132588920_132587501_132586081_132584658_132583235_132581809_132580382_132578954_132577524_132576092_132574659_132573225_132571788_132570351_132568911_132567471_132566028_132564584_132563139_132561692_132560243_132558793_132557342_132555889_132554434_132552978_132551520_132550060_132548600_132547137_132545673_132544208_132542741_132541272_132539802_132538330_132536857_132535382_132533906_132532428_132530949_132529468_132527985_132526501_132525016_132523529_132522040_132520550_132519058_132517565_132516070_132514574_132513076_132511577_132510076_132508573_132507069_132505564_132504057_132502548_132501038_132499526_132498013_132496498_132494982_132493464_132491945_132490424_132488901_132487377_132485852_132484325_132482796_132481266_132479734_132478201_132476666_132475130_132473592_132472053_132470512_132468970_132467426_132465880_132464333_132462785_132461235_132459683_132458130_132456575_132455019_132453461_132451902_132450341_132448779_132447215_132445650_132444083_132442514_132440944_132439373_132437800_132436225_132434649_132433071_132431492_132429912_132428329_132426746_132425160_132423573_132421985_132420395_132418804_132417211_132415617_132414021_132412423_132410824_132409223_132407621_132406018_132404413_132402806_132401198_132399588_132397977_132396364_132394750_132393134_132391517_132389898_132388277_132386656_132385032_132383407,
  132381781_132380153_132378523_132376892_132375260_132373625_132371990_132370353_132368714_132367074_132365432_132363789_132362144_132360498_132358850_132357201_132355550_132353898_132352244_132350588_132348931_132347273_132345613_132343952_132342289_132340624_132338958_132337291_132335622_132333951_132332279_132330605_132328930_132327253_132325575_132323896_132322214_132320532_132318847_132317162_132315474_132313786_132312095_132310404_132308710_132307015_132305319_132303621_132301922_132300221_132298519_132296815_132295109_132293402_132291694_132289984_132288272_132286559_132284845_132283129_132281411_132279692_132277972_132276249_132274526_132272801_132271074_132269346_132267616_132265885_132264153_132262419_132260683_132258946_132257207_132255467_132253725_132251982_132250237_132248491_132246743_132244994_132243243_132241491_132239737_132237982_132236225_132234467_132232707_132230946_132229183_132227419_132225653_132223886_132222117_132220346_132218575_132216801_132215026_132213250_132211472_132209693_132207912_132206130_132204346_132202560_132200773_132198985_132197195_132195404_132193611_132191817_132190021_132188223_132186424_132184624_132182822_132181019_132179214_132177408_132175600_132173790_132171979_132170167_132168353_132166538_132164721_132162902_132161083_132159261_132157438_132155614_132153788_132151961_132150132_132148302_132146470_132144636_132142801_132140965_132139127_132137288_132135447_132133605_132131761_132129916_132128069_132126221_132124371_132122520_132120667_132118812_132116957_132115099_132113241_132111380_132109519_132107655_132105791_132103925_132102057_132100188_132098317_132096445_132094571_132092696_132090819_132088941_132087062_132085180_132083298_132081414_132079528_132077641_132075753_132073863_132071971_132070078_132068184_132066288_132064390_132062491_132060591_132058689_132056785_132054880_132052974_132051066_132049157_132047246_132045333_132043420_132041504_132039588_132037669_132035750_132033828_132031906_132029981_132028056_132026129_132024200_132022270_132020338_132018405_132016470_132014534_132012597_132010658_132008717_132006775_132004832_132002887_132000940_131998993_131997043_131995092_131993140_131991186_131989231_131987274_131985316_131983356_131981395_131979432_131977468_131975502_131973535_131971567_131969597_131967625_131965652_131963678_131961702_131959724_131957745_131955765_131953783_131951800_131949815_131947828_131945841_131943851_131941861_131939869_131937875_131935880_131933883_131931885_131929886_131927885_131925882_131923878_131921873_131919866_131917857,
  131915848_131913836_131911824_131909809_131907794_131905776_131903758_131901738_131899716_131897693_131895668_131893642_131891615_131889586_131887556_131885524_131883491_131881456_131879419_131877382_131875343_131873302_131871260_131869216_131867171_131865125_131863077_131861027_131858976_131856924_131854870_131852815_131850758_131848700_131846640_131844579_131842517_131840452_131838387_131836320_131834251_131832182_131830110_131828037_131825963_131823887_131821810_131819732_131817651_131815570_131813487_131811402_131809316_131807229_131805140_131803050_131800958_131798865_131796770_131794674_131792576_131790477_131788377_131786275_131784171_131782066_131779960_131777852_131775743_131773632_131771520_131769407_131767292_131765175_131763057_131760938_131758817_131756694_131754571_131752445_131750319_131748191_131746061_131743930_131741798_131739664_131737528_131735392_131733253_131731114_131728972_131726830_131724686_131722540_131720393_131718245_131716095_131713944_131711791_131709637_131707481_131705324_131703165_131701005_131698844_131696681_131694517_131692351_131690184_131688015_131685845_131683674_131681501_131679326_131677150_131674973_131672794_131670614_131668432_131666249_131664065_131661879_131659692_131657503_131655312_131653121_131650928_131648733_131646537_131644339_131642141_131639940_131637738_131635535_131633330_131631124_131628917_131626708_131624497_131622286_131620072_131617858_131615641_131613424_131611205_131608984_131606762_131604539_131602314_131600088_131597861_131595631_131593401_131591169_131588936_131586701_131584465_131582227_131579988_131577747_131575505_131573262_131571017_131568771_131566523_131564274_131562024_131559772_131557518_131555263_131553007_131550749_131548490_131546230_131543968_131541704_131539440_131537173_131534906_131532637_131530366_131528094_131525821_131523546_131521270_131518992_131516713_131514432_131512150_131509867_131507582_131505296_131503008_131500719_131498429_131496137_131493844_131491549_131489253_131486955_131484656_131482356_131480054_131477751_131475446_131473140_131470832_131468524_131466213_131463901_131461588_131459274_131456958_131454640_131452321_131450001_131447679_131445356_131443032_131440706_131438378_131436049_131433719_131431388_131429055_131426720_131424384_131422047_131419708_131417368_131415027_131412684_131410340_131407994_131405647_131403298_131400948_131398597_131396244_131393890_131391534_131389177_131386819_131384459_131382097_131379735_131377371_131375005_131372638_131370270_131367900_131365529_131363157_131360783_131358407_131356031,
  131353652_131351273_131348892_131346509_131344126_131341741_131339354_131336966_131334577_131332186_131329794_131327400_131325005_131322608_131320211_131317811_131315411_131313009_131310605_131308201_131305794_131303387_131300978_131298567_131296155_131293742_131291328_131288912_131286494_131284075_131281655_131279233_131276810_131274386_131271960_131269533_131267104_131264674_131262243_131259810_131257376_131254940_131252503_131250065_131247625_131245184_131242742_131240298_131237852_131235405_131232957_131230508_131228057_131225605_131223151_131220696_131218239_131215781_131213322_131210862_131208400_131205936_131203471_131201005_131198537_131196068_131193598_131191126_131188653_131186179_131183703_131181225_131178747_131176267_131173785_131171302_131168818_131166332_131163845_131161357_131158867_131156376_131153883_131151390_131148894_131146397_131143899_131141400_131138899_131136397_131133893_131131388_131128882_131126374_131123865_131121354_131118843_131116329_131113815_131111299_131108781_131106262_131103742_131101221_131098698_131096173_131093648_131091121_131088592_131086062_131083531_131080999_131078465_131075929_131073393_131070855_131068315_131065774_131063232_131060689_131058144_131055597_131053050_131050501_131047950_131045398_131042845_131040291_131037735_131035177_131032619_131030059_131027497_131024935_131022370_131019805_131017238_131014670_131012100_131009529_131006957_131004383_131001808_130999232_130996654_130994075_130991494_130988912_130986329_130983744_130981158_130978571_130975982_130973392_130970801_130968208_130965614_130963018_130960421_130957823_130955223_130952622_130950020_130947416_130944811_130942205_130939597_130936988_130934377_130931765_130929152_130926537_130923921_130921304_130918685_130916065_130913444_130910821_130908197_130905572_130902945_130900317_130897687_130895056_130892424_130889790_130887156_130884519_130881882_130879243_130876602_130873960_130871317_130868673_130866027_130863380_130860732_130858082_130855431_130852778_130850124_130847469_130844812_130842154_130839495_130836835_130834173_130831509_130828845_130826179_130823511_130820842_130818172_130815501_130812828_130810154_130807479_130804802_130802124_130799444_130796763_130794081_130791398_130788713_130786027_130783339_130780650_130777960_130775269_130772576_130769881_130767186_130764489_130761791_130759091_130756390_130753688_130750984_130748279_130745573_130742865_130740156_130737446_130734734_130732021_130729307_130726591_130723874_130721156_130718436_130715715_130712993_130710269_130707544_130704818_130702090,
  130699361_130696631_130693899_130691166_130688431_130685696_130682959_130680220_130677481_130674740_130671997_130669254_130666509_130663762_130661015_130658266_130655515_130652764_130650011_130647256_130644501_130641744_130638985_130636226_130633465_130630703_130627939_130625174_130622408_130619640_130616871_130614101_130611330_130608557_130605782_130603007_130600230_130597452_130594672_130591892_130589109_130586326_130583541_130580755_130577968_130575179_130572389_130569598_130566805_130564011_130561216_130558419_130555621_130552822_130550021_130547219_130544416_130541611_130538805_130535998_130533190_130530380_130527569_130524756_130521943_130519127_130516311_130513493_130510674_130507854_130505032_130502209_130499385_130496560_130493733_130490905_130488075_130485244_130482412_130479579_130476744_130473908_130471070_130468232_130465392_130462550_130459708_130456864_130454019_130451172_130448324_130445475_130442625_130439773_130436920_130434066_130431210_130428353_130425495_130422635_130419774_130416912_130414049_130411184_130408318_130405450_130402582_130399712_130396840_130393968_130391094_130388219_130385342_130382464_130379585_130376705_130373823_130370940_130368056_130365170_130362283_130359395_130356506_130353615_130350723_130347830_130344935_130342039_130339142_130336243_130333343_130330442_130327540_130324636_130321731_130318825_130315917_130313008_130310098_130307187_130304274_130301360_130298445_130295528_130292610_130289691_130286770_130283849_130280926_130278001_130275076_130272149_130269220_130266291_130263360_130260428_130257495_130254560_130251624_130248687_130245748_130242809_130239867_130236925_130233981_130231037_130228090_130225143_130222194_130219244_130216293_130213340_130210386_130207431_130204475_130201517_130198558_130195598_130192636_130189673_130186709_130183744_130180777_130177809_130174840_130171869_130168897_130165924_130162950_130159974_130156997_130154019_130151040_130148059_130145077_130142094_130139109_130136124_130133136_130130148_130127158_130124168_130121175_130118182_130115187_130112191_130109194_130106196_130103196_130100195_130097192_130094189_130091184_130088178_130085170_130082162_130079152_130076141_130073128_130070114_130067099_130064083_130061066_130058047_130055027_130052005_130048983_130045959_130042934_130039908_130036880_130033851_130030821_130027789_130024757_130021723_130018688_130015651_130012614_130009575_130006534_130003493_130000450_129997406_129994361_129991314_129988266_129985217_129982167_129979116_129976063_129973009_129969953_129966897_129963839_129960780,
  129957720_129954658_129951595_129948531_129945466_129942399_129939331_129936262_129933192_129930120_129927047_129923973_129920898_129917821_129914744_129911664_129908584_129905503_129902420_129899336_129896250_129893164_129890076_129886987_129883897_129880805_129877712_129874618_129871523_129868426_129865328_129862229_129859129_129856028_129852925_129849821_129846716_129843609_129840501_129837392_129834282_129831171_129828058_129824944_129821829_129818713_129815595_129812476_129809356_129806235_129803112_129799988_129796863_129793737_129790609_129787480_129784350_129781219_129778087_129774953_129771818_129768682_129765545_129762406_129759266_129756125_129752983_129749839_129746694_129743548_129740401_129737252_129734103_129730952_129727799_129724646_129721491_129718336_129715178_129712020_129708861_129705700_129702538_129699374_129696210_129693044_129689877_129686709_129683540_129680369_129677198_129674024_129670850_129667675_129664498_129661320_129658141_129654961_129651779_129648596_129645412_129642227_129639040_129635853_129632664_129629474_129626282_129623090_129619896_129616701_129613505_129610307_129607109_129603909_129600708_129597505_129594302_129591097_129587891_129584684_129581476_129578266_129575055_129571843_129568630_129565416_129562200_129558983_129555765_129552546_129549325_129546104_129542881_129539657_129536431_129533205_129529977_129526748_129523518_129520286_129517054_129513820_129510585_129507349_129504112_129500873_129497633_129494392_129491150_129487906_129484662_129481416_129478169_129474921_129471671_129468421_129465169_129461916_129458661_129455406_129452149_129448892_129445632_129442372_129439111_129435848_129432584_129429319_129426053_129422786_129419517_129416247_129412976_129409704_129406430_129403156_129399880_129396603_129393325_129390045_129386765_129383483_129380200_129376916_129373631_129370344_129367056_129363767_129360477_129357186_129353893_129350600_129347305_129344009_129340712_129337413_129334113_129330813_129327511_129324207_129320903_129317598_129314291_129310983_129307674_129304363_129301052_129297739_129294425_129291110_129287794_129284477_129281158_129277838_129274517_129271195_129267872_129264547_129261222_129257895_129254567_129251238_129247907_129244576_129241243_129237909_129234574_129231238_129227900_129224561_129221222_129217881_129214538_129211195_129207851_129204505_129201158_129197810_129194461_129191110_129187759_129184406_129181052_129177697_129174341_129170983_129167625_129164265_129160904_129157542_129154179_129150814_129147449_129144082_129140714_129137345,
  129133975_129130603_129127230_129123857_129120482_129117106_129113728_129110350_129106970_129103590_129100208_129096825_129093440_129090055_129086668_129083281_129079892_129076502_129073110_129069718_129066324_129062930_129059534_129056137_129052739_129049339_129045939_129042537_129039134_129035730_129032325_129028919_129025511_129022103_129018693_129015282_129011870_129008457_129005042_129001627_128998210_128994792_128991373_128987953_128984532_128981109_128977686_128974261_128970835_128967408_128963980_128960551_128957120_128953688_128950256_128946822_128943387_128939950_128936513_128933075_128929635_128926194_128922752_128919309_128915865_128912419_128908973_128905525_128902076_128898626_128895175_128891723_128888269_128884815_128881359_128877902_128874444_128870985_128867525_128864064_128860601_128857137_128853673_128850207_128846740_128843271_128839802_128836332_128832860_128829387_128825913_128822438_128818962_128815485_128812006_128808527_128805046_128801564_128798081_128794597_128791112_128787626_128784138_128780649_128777160_128773669_128770177_128766684_128763189_128759694_128756197_128752700_128749201_128745701_128742200_128738698_128735194_128731690_128728185_128724678_128721170_128717661_128714151_128710640_128707128_128703614_128700100_128696584_128693067_128689549_128686030_128682510_128678989_128675466_128671943_128668418_128664892_128661366_128657838_128654308_128650778_128647247_128643714_128640181_128636646_128633110_128629573_128626035_128622496_128618956_128615415_128611872_128608328_128604784_128601238_128597691_128594143_128590594_128587043_128583492_128579939_128576386_128572831_128569275_128565718_128562160_128558601_128555041_128551479_128547917_128544353_128540789_128537223_128533656_128530088_128526519_128522949_128519377_128515805_128512231_128508657_128505081_128501504_128497926_128494347_128490767_128487186_128483603_128480020_128476435_128472849_128469263_128465675_128462086_128458496_128454905_128451312_128447719_128444125_128440529_128436932_128433335_128429736_128426136_128422535_128418933_128415330_128411725_128408120_128404513_128400906_128397297_128393687_128390076_128386465_128382851_128379237_128375622_128372006_128368388_128364770_128361150_128357530_128353908_128350285_128346661_128343036_128339410_128335783_128332154_128328525_128324895_128321263_128317631_128313997_128310362_128306726_128303089_128299451_128295812_128292172_128288531_128284888_128281245_128277600_128273955_128270308_128266660_128263011_128259361_128255710_128252058_128248405_128244751_128241096_128237439,
  128233782_128230123_128226464_128222803_128219141_128215478_128211815_128208150_128204483_128200816_128197148_128193479_128189809_128186137_128182465_128178791_128175116_128171441_128167764_128164086_128160407_128156727_128153046_128149364_128145681_128141997_128138311_128134625_128130938_128127249_128123560_128119869_128116177_128112484_128108791_128105096_128101400_128097703_128094005_128090306_128086605_128082904_128079202_128075498_128071794_128068088_128064382_128060674_128056966_128053256_128049545_128045833_128042120_128038406_128034691_128030975_128027258_128023540_128019821_128016100_128012379_128008657_128004933_128001209_127997483_127993756_127990029_127986300_127982570_127978839_127975108_127971375_127967641_127963906_127960170_127956433_127952694_127948955_127945215_127941474_127937731_127933988_127930243_127926498_127922751_127919004_127915255_127911505_127907755_127904003_127900250_127896496_127892741_127888985_127885229_127881471_127877711_127873951_127870190_127866428_127862665_127858901_127855135_127851369_127847602_127843833_127840064_127836293_127832522_127828749_127824976_127821201_127817425_127813649_127809871_127806092_127802312_127798532_127794750_127790967_127787183_127783398_127779612_127775825_127772037_127768248_127764458_127760667_127756874_127753081_127749287_127745492_127741695_127737898_127734100_127730300_127726500_127722699_127718896_127715093_127711288_127707483_127703676_127699869_127696060_127692250_127688440_127684628_127680816_127677002_127673187_127669371_127665555_127661737_127657918_127654098_127650277_127646456_127642633_127638809_127634984_127631158_127627331_127623503_127619674_127615844_127612013_127608181_127604348_127600514_127596679_127592843_127589006_127585168_127581329_127577489_127573648_127569805_127565962_127562118_127558273_127554427_127550580_127546731_127542882_127539032_127535181_127531329_127527475_127523621_127519766_127515910_127512052_127508194_127504335_127500475_127496613_127492751_127488888_127485023_127481158_127477292_127473425_127469556_127465687_127461817_127457945_127454073_127450200_127446326_127442450_127438574_127434697_127430818_127426939_127423059_127419178_127415295_127411412_127407528_127403643_127399756_127395869_127391981_127388092_127384201_127380310_127376418_127372525_127368631_127364735_127360839_127356942_127353044_127349145_127345245_127341344_127337441_127333538_127329634_127325729_127321823_127317916_127314008_127310099_127306189_127302278_127298366_127294453_127290539_127286624_127282708_127278791_127274874_127270955_127267035,
  127263114_127259192_127255270_127251346_127247421_127243495_127239569_127235641_127231712_127227783_127223852_127219920_127215988_127212054_127208120_127204184_127200248_127196310_127192372_127188433_127184492_127180551_127176609_127172665_127168721_127164776_127160830_127156882_127152934_127148985_127145035_127141084_127137132_127133179_127129225_127125270_127121314_127117357_127113399_127109441_127105481_127101520_127097558_127093596_127089632_127085668_127081702_127077736_127073768_127069800_127065830_127061860_127057888_127053916_127049943_127045969_127041993_127038017_127034040_127030062_127026083_127022103_127018122_127014140_127010158_127006174_127002189_126998203_126994217_126990229_126986240_126982251_126978260_126974269_126970276_126966283_126962289_126958294_126954297_126950300_126946302_126942303_126938303_126934302_126930300_126926297_126922293_126918289_126914283_126910276_126906269_126902260_126898251_126894240_126890229_126886216_126882203_126878189_126874174_126870158_126866140_126862122_126858103_126854084_126850063_126846041_126842018_126837995_126833970_126829944_126825918_126821891_126817862_126813833_126809803_126805771_126801739_126797706_126793672_126789637_126785601_126781565_126777527_126773488_126769449_126765408_126761367_126757324_126753281_126749237_126745191_126741145_126737098_126733050_126729001_126724951_126720901_126716849_126712796_126708743_126704688_126700633_126696576_126692519_126688461_126684402_126680342_126676281_126672219_126668156_126664092_126660027_126655962_126651895_126647828_126643759_126639690_126635620_126631548_126627476_126623403_126619329_126615255_126611179_126607102_126603025_126598946_126594867_126590786_126586705_126582623_126578540_126574456_126570371_126566285_126562198_126558110_126554022_126549932_126545842_126541750_126537658_126533565_126529471_126525376_126521280_126517183_126513085_126508987_126504887_126500787_126496685_126492583_126488480_126484376_126480271_126476165_126472058_126467950_126463841_126459732_126455621_126451510_126447398_126443285_126439170_126435055_126430940_126426823_126422705_126418587_126414467_126410347_126406225_126402103_126397980_126393856_126389731_126385605_126381479_126377351_126373223_126369093_126364963_126360832_126356700_126352567_126348433_126344298_126340162_126336026_126331888_126327750_126323611_126319471_126315329_126311188_126307045_126302901_126298756_126294611_126290465_126286317_126282169_126278020_126273870_126269719_126265568_126261415_126257262_126253107_126248952_126244796_126240639_126236481_126232322,
  126228162_126224002_126219840_126215678_126211515_126207350_126203185_126199020_126194853_126190685_126186517_126182347_126178177_126174006_126169834_126165661_126161487_126157312_126153137_126148960_126144783_126140605_126136426_126132246_126128065_126123883_126119701_126115517_126111333_126107148_126102962_126098775_126094587_126090398_126086209_126082018_126077827_126073635_126069442_126065248_126061053_126056857_126052661_126048463_126044265_126040066_126035866_126031665_126027463_126023261_126019057_126014853_126010648_126006442_126002235_125998027_125993818_125989609_125985399_125981187_125976975_125972762_125968548_125964334_125960118_125955902_125951685_125947466_125943247_125939028_125934807_125930585_125926363_125922140_125917915_125913690_125909465_125905238_125901010_125896782_125892553_125888323_125884092_125879860_125875627_125871393_125867159_125862924_125858688_125854451_125850213_125845974_125841735_125837494_125833253_125829011_125824768_125820525_125816280_125812035_125807788_125803541_125799293_125795044_125790795_125786544_125782293_125778041_125773788_125769534_125765279_125761023_125756767_125752510_125748252_125743993_125739733_125735472_125731211_125726948_125722685_125718421_125714156_125709891_125705624_125701357_125697089_125692820_125688550_125684279_125680008_125675735_125671462_125667188_125662913_125658637_125654361_125650084_125645805_125641526_125637246_125632966_125628684_125624402_125620119_125615835_125611550_125607264_125602978_125598690_125594402_125590113_125585823_125581533_125577241_125572949_125568656_125564362_125560067_125555771_125551475_125547178_125542880_125538581_125534281_125529981_125525679_125521377_125517074_125512770_125508466_125504160_125499854_125495547_125491239_125486930_125482620_125478310_125473999_125469687_125465374_125461060_125456746_125452431_125448114_125443798_125439480_125435161_125430842_125426522_125422201_125417879_125413556_125409233_125404909_125400584_125396258_125391931_125387604_125383275_125378946_125374616_125370286_125365954_125361622_125357289_125352955_125348620_125344284_125339948_125335611_125331273_125326934_125322595_125318254_125313913_125309571_125305228_125300885_125296540_125292195_125287849_125283502_125279155_125274806_125270457_125266107_125261756_125257405_125253052_125248699_125244345_125239990_125235635_125231278_125226921_125222563_125218204_125213845_125209484_125205123_125200761_125196398_125192035_125187671_125183305_125178939_125174573_125170205_125165837_125161468_125157098_125152727_125148356_125143984_125139611,
  125135237_125130862_125126487_125122111_125117734_125113356_125108977_125104598_125100218_125095837_125091455_125087073_125082690_125078306_125073921_125069535_125065149_125060762_125056374_125051985_125047595_125043205_125038814_125034422_125030030_125025636_125021242_125016847_125012451_125008055_125003658_124999259_124994861_124990461_124986061_124981659_124977257_124972855_124968451_124964047_124959642_124955236_124950830_124946422_124942014_124937605_124933196_124928785_124924374_124919962_124915549_124911136_124906721_124902306_124897890_124893474_124889056_124884638_124880219_124875800_124871379_124866958_124862536_124858113_124853690_124849266_124844841_124840415_124835988_124831561_124827133_124822704_124818275_124813844_124809413_124804981_124800549_124796115_124791681_124787246_124782811_124778374_124773937_124769499_124765060_124760621_124756181_124751740_124747298_124742856_124738412_124733968_124729524_124725078_124720632_124716185_124711737_124707289_124702839_124698389_124693939_124689487_124685035_124680582_124676128_124671674_124667218_124662762_124658306_124653848_124649390_124644931_124640471_124636011_124631550_124627088_124622625_124618161_124613697_124609232_124604767_124600300_124595833_124591365_124586896_124582427_124577957_124573486_124569014_124564542_124560069_124555595_124551121_124546645_124542169_124537692_124533215_124528737_124524258_124519778_124515297_124510816_124506334_124501852_124497368_124492884_124488399_124483914_124479427_124474940_124470452_124465964_124461475_124456985_124452494_124448002_124443510_124439017_124434524_124430029_124425534_124421038_124416542_124412044_124407546_124403048_124398548_124394048_124389547_124385045_124380543_124376040_124371536_124367032_124362526_124358020_124353514_124349006_124344498_124339989_124335480_124330969_124326458_124321947_124317434_124312921_124308407_124303892_124299377_124294861_124290344_124285827_124281308_124276789_124272270_124267749_124263228_124258707_124254184_124249661_124245137_124240612_124236087_124231561_124227034_124222507_124217978_124213449_124208920_124204389_124199858_124195327_124190794_124186261_124181727_124177193_124172657_124168121_124163585_124159047_124154509_124149970_124145431_124140890_124136349_124131808_124127265_124122722_124118179_124113634_124109089_124104543_124099997_124095449_124090901_124086353_124081803_124077253_124072702_124068151_124063599_124059046_124054492_124049938_124045383_124040828_124036271_124031714_124027156_124022598_124018039_124013479_124008918_124004357_123999795_123995233,
  123990669_123986105_123981541_123976975_123972409_123967843_123963275_123958707_123954138_123949569_123944999_123940428_123935856_123931284_123926711_123922137_123917563_123912988_123908412_123903836_123899259_123894681_123890103_123885523_123880944_123876363_123871782_123867200_123862618_123858034_123853450_123848866_123844281_123839695_123835108_123830521_123825933_123821344_123816755_123812165_123807574_123802983_123798391_123793798_123789204_123784610_123780016_123775420_123770824_123766227_123761630_123757032_123752433_123747833_123743233_123738632_123734031_123729429_123724826_123720222_123715618_123711013_123706408_123701802_123697195_123692587_123687979_123683370_123678761_123674151_123669540_123664928_123660316_123655703_123651090_123646475_123641860_123637245_123632629_123628012_123623394_123618776_123614157_123609538_123604918_123600297_123595675_123591053_123586430_123581807_123577183_123572558_123567933_123563307_123558680_123554052_123549424_123544796_123540166_123535536_123530905_123526274_123521642_123517009_123512376_123507742_123503107_123498472_123493836_123489200_123484562_123479925_123475286_123470647_123466007_123461366_123456725_123452084_123447441_123442798_123438154_123433510_123428865_123424219_123419573_123414926_123410278_123405630_123400981_123396331_123391681_123387030_123382379_123377727_123373074_123368420_123363766_123359112_123354456_123349800_123345144_123340486_123335829_123331170_123326511_123321851_123317190_123312529_123307868_123303205_123298542_123293878_123289214_123284549_123279884_123275217_123270551_123265883_123261215_123256546_123251877_123247207_123242536_123237865_123233193_123228520_123223847_123219173_123214499_123209824_123205148_123200472_123195795_123191117_123186439_123181760_123177081_123172400_123167720_123163038_123158356_123153674_123148990_123144307_123139622_123134937_123130251_123125565_123120878_123116190_123111502_123106813_123102124_123097434_123092743_123088051_123083359_123078667_123073974_123069280_123064585_123059890_123055195_123050498_123045801_123041104_123036406_123031707_123027007_123022307_123017607_123012905_123008204_123003501_122998798_122994094_122989390_122984685_122979980_122975273_122970567_122965859_122961151_122956443_122951733_122947024_122942313_122937602_122932890_122928178_122923465_122918752_122914038_122909323_122904608_122899892_122895175_122890458_122885740_122881022_122876303_122871583_122866863_122862142_122857421_122852699_122847977_122843253_122838530_122833805_122829080_122824355_122819628_122814902_122810174_122805446,
  122800718_122795989_122791259_122786528_122781797_122777066_122772334_122767601_122762867_122758134_122753399_122748664_122743928_122739192_122734455_122729717_122724979_122720240_122715501_122710761_122706021_122701280_122696538_122691796_122687053_122682309_122677565_122672821_122668075_122663329_122658583_122653836_122649089_122644340_122639592_122634842_122630092_122625342_122620591_122615839_122611087_122606334_122601580_122596826_122592072_122587317_122582561_122577804_122573047_122568290_122563532_122558773_122554014_122549254_122544494_122539733_122534971_122530209_122525446_122520683_122515919_122511154_122506389_122501624_122496857_122492091_122487323_122482555_122477787_122473018_122468248_122463478_122458707_122453935_122449163_122444391_122439618_122434844_122430070_122425295_122420520_122415744_122410967_122406190_122401412_122396634_122391855_122387076_122382296_122377515_122372734_122367953_122363170_122358388_122353604_122348820_122344036_122339251_122334465_122329679_122324892_122320105_122315317_122310529_122305740_122300950_122296160_122291369_122286578_122281786_122276994_122272201_122267407_122262613_122257819_122253023_122248228_122243431_122238635_122233837_122229039_122224241_122219442_122214642_122209842_122205041_122200240_122195438_122190635_122185832_122181029_122176225_122171420_122166615_122161809_122157003_122152196_122147389_122142581_122137772_122132963_122128154_122123344_122118533_122113722_122108910_122104098_122099285_122094471_122089657_122084843_122080028_122075212_122070396_122065579_122060762_122055944_122051126_122046307_122041488_122036668_122031847_122027026_122022205_122017382_122012560_122007737_122002913_121998089_121993264_121988438_121983612_121978786_121973959_121969131_121964303_121959475_121954646_121949816_121944986_121940155_121935324_121930492_121925659_121920827_121915993_121911159_121906325_121901490_121896654_121891818_121886981_121882144_121877306_121872468_121867629_121862790_121857950_121853110_121848269_121843428_121838586_121833743_121828900_121824057_121819213_121814368_121809523_121804677_121799831_121794985_121790137_121785290_121780441_121775593_121770743_121765893_121761043_121756192_121751341_121746489_121741636_121736783_121731930_121727076_121722221_121717366_121712511_121707655_121702798_121697941_121693083_121688225_121683366_121678507_121673647_121668787_121663926_121659065_121654203_121649341_121644478_121639615_121634751_121629887_121625022_121620156_121615290_121610424_121605557_121600690_121595822_121590953_121586084_121581215_121576345,
  121571474_121566603_121561732_121556860_121551987_121547114_121542240_121537366_121532492_121527617_121522741_121517865_121512988_121508111_121503234_121498356_121493477_121488598_121483718_121478838_121473957_121469076_121464195_121459312_121454430_121449547_121444663_121439779_121434894_121430009_121425123_121420237_121415350_121410463_121405576_121400687_121395799_121390910_121386020_121381130_121376239_121371348_121366456_121361564_121356672_121351778_121346885_121341991_121337096_121332201_121327305_121322409_121317513_121312616_121307718_121302820_121297922_121293022_121288123_121283223_121278322_121273421_121268520_121263618_121258715_121253812_121248909_121244005_121239101_121234196_121229290_121224385_121219478_121214571_121209664_121204756_121199848_121194939_121190030_121185120_121180210_121175299_121170388_121165476_121160564_121155651_121150738_121145825_121140910_121135996_121131081_121126165_121121249_121116333_121111416_121106498_121101580_121096662_121091743_121086824_121081904_121076984_121072063_121067142_121062220_121057298_121052375_121047452_121042528_121037604_121032679_121027754_121022829_121017903_121012976_121008049_121003122_120998194_120993266_120988337_120983407_120978478_120973547_120968617_120963686_120958754_120953822_120948889_120943956_120939023_120934089_120929154_120924219_120919284_120914348_120909412_120904475_120899538_120894600_120889662_120884723_120879784_120874844_120869904_120864964_120860023_120855082_120850140_120845197_120840255_120835311_120830368_120825423_120820479_120815534_120810588_120805642_120800696_120795749_120790801_120785854_120780905_120775957_120771007_120766058_120761108_120756157_120751206_120746254_120741303_120736350_120731397_120726444_120721490_120716536_120711581_120706626_120701671_120696715_120691758_120686801_120681844_120676886_120671928_120666969_120662010_120657050_120652090_120647130_120642169_120637208_120632246_120627283_120622321_120617357_120612394_120607430_120602465_120597500_120592535_120587569_120582603_120577636_120572669_120567701_120562733_120557765_120552796_120547826_120542856_120537886_120532915_120527944_120522973_120518001_120513028_120508055_120503082_120498108_120493134_120488159_120483184_120478209_120473233_120468256_120463279_120458302_120453324_120448346_120443368_120438389_120433409_120428429_120423449_120418468_120413487_120408505_120403523_120398541_120393558_120388575_120383591_120378607_120373622_120368637_120363652_120358666_120353679_120348692_120343705_120338718_120333730_120328741_120323752_120318763_120313773,
  120308783_120303792_120298801_120293810_120288818_120283825_120278833_120273840_120268846_120263852_120258858_120253863_120248867_120243872_120238876_120233879_120228882_120223885_120218887_120213889_120208890_120203891_120198891_120193891_120188891_120183890_120178889_120173888_120168886_120163883_120158880_120153877_120148874_120143869_120138865_120133860_120128855_120123849_120118843_120113836_120108829_120103822_120098814_120093806_120088797_120083788_120078779_120073769_120068759_120063748_120058737_120053725_120048713_120043701_120038688_120033675_120028662_120023648_120018633_120013619_120008603_120003588_119998572_119993555_119988539_119983521_119978504_119973486_119968467_119963449_119958429_119953410_119948390_119943369_119938348_119933327_119928306_119923283_119918261_119913238_119908215_119903191_119898167_119893143_119888118_119883093_119878067_119873041_119868015_119862988_119857960_119852933_119847905_119842876_119837847_119832818_119827789_119822759_119817728_119812697_119807666_119802635_119797603_119792570_119787537_119782504_119777471_119772437_119767402_119762368_119757333_119752297_119747261_119742225_119737188_119732151_119727114_119722076_119717037_119711999_119706960_119701920_119696880_119691840_119686800_119681759_119676717_119671676_119666634_119661591_119656548_119651505_119646461_119641417_119636373_119631328_119626283_119621237_119616191_119611145_119606098_119601051_119596003_119590956_119585907_119580859_119575810_119570760_119565710_119560660_119555610_119550559_119545507_119540456_119535404_119530351_119525298_119520245_119515192_119510138_119505083_119500029_119494974_119489918_119484862_119479806_119474750_119469693_119464635_119459578_119454520_119449461_119444402_119439343_119434284_119429224_119424163_119419103_119414042_119408980_119403919_119398856_119393794_119388731_119383668_119378604_119373540_119368476_119363411_119358346_119353280_119348215_119343148_119338082_119333015_119327948_119322880_119317812_119312744_119307675_119302606_119297536_119292466_119287396_119282326_119277255_119272183_119267112_119262040_119256967_119251895_119246821_119241748_119236674_119231600_119226525_119221451_119216375_119211300_119206224_119201147_119196071_119190994_119185916_119180838_119175760_119170682_119165603_119160524_119155444_119150364_119145284_119140203_119135122_119130041_119124959_119119877_119114795_119109712_119104629_119099546_119094462_119089378_119084293_119079208_119074123_119069038_119063952_119058865_119053779_119048692_119043605_119038517_119033429_119028341_119023252,
  119018163_119013074_119007984_119002894_118997803_118992712_118987621_118982530_118977438_118972346_118967253_118962161_118957067_118951974_118946880_118941786_118936691_118931596_118926501_118921405_118916310_118911213_118906117_118901020_118895922_118890825_118885727_118880628_118875530_118870431_118865331_118860232_118855132_118850031_118844931_118839830_118834728_118829627_118824525_118819422_118814320_118809217_118804113_118799009_118793905_118788801_118783696_118778591_118773486_118768380_118763274_118758168_118753061_118747954_118742847_118737739_118732631_118727522_118722414_118717305_118712195_118707086_118701976_118696865_118691755_118686644_118681532_118676421_118671309_118666196_118661084_118655971_118650857_118645744_118640630_118635515_118630401_118625286_118620171_118615055_118609939_118604823_118599706_118594589_118589472_118584355_118579237_118574119_118569000_118563881_118558762_118553643_118548523_118543403_118538282_118533162_118528041_118522919_118517798_118512676_118507553_118502431_118497308_118492184_118487061_118481937_118476812_118471688_118466563_118461438_118456312_118451186_118446060_118440934_118435807_118430680_118425553_118420425_118415297_118410169_118405040_118399911_118394782_118389652_118384522_118379392_118374261_118369131_118363999_118358868_118353736_118348604_118343472_118338339_118333206_118328073_118322939_118317805_118312671_118307536_118302401_118297266_118292131_118286995_118281859_118276722_118271586_118266449_118261311_118256174_118251036_118245898_118240759_118235620_118230481_118225342_118220202_118215062_118209922_118204781_118199640_118194499_118189357_118184215_118179073_118173931_118168788_118163645_118158501_118153358_118148214_118143070_118137925_118132780_118127635_118122490_118117344_118112198_118107051_118101905_118096758_118091611_118086463_118081315_118076167_118071019_118065870_118060721_118055572_118050422_118045272_118040122_118034972_118029821_118024670_118019518_118014367_118009215_118004063_117998910_117993757_117988604_117983451_117978297_117973143_117967989_117962834_117957679_117952524_117947369_117942213_117937057_117931901_117926744_117921587_117916430_117911273_117906115_117900957_117895799_117890640_117885481_117880322_117875163_117870003_117864843_117859683_117854522_117849361_117844200_117839039_117833877_117828715_117823553_117818390_117813227_117808064_117802901_117797737_117792573_117787409_117782245_117777080_117771915_117766749_117761584_117756418_117751252_117746085_117740918_117735751_117730584_117725417_117720249_117715081_117709912,
  117704743_117699574_117694405_117689236_117684066_117678896_117673726_117668555_117663384_117658213_117653041_117647870_117642698_117637526_117632353_117627180_117622007_117616834_117611660_117606486_117601312_117596138_117590963_117585788_117580613_117575437_117570262_117565086_117559909_117554733_117549556_117544379_117539201_117534024_117528846_117523668_117518489_117513310_117508131_117502952_117497773_117492593_117487413_117482233_117477052_117471871_117466690_117461509_117456327_117451145_117445963_117440781_117435598_117430415_117425232_117420048_117414865_117409681_117404496_117399312_117394127_117388942_117383757_117378571_117373385_117368199_117363013_117357826_117352640_117347453_117342265_117337078_117331890_117326702_117321513_117316325_117311136_117305946_117300757_117295567_117290377_117285187_117279997_117274806_117269615_117264424_117259233_117254041_117248849_117243657_117238464_117233272_117228079_117222885_117217692_117212498_117207304_117202110_117196916_117191721_117186526_117181331_117176135_117170939_117165744_117160547_117155351_117150154_117144957_117139760_117134562_117129365_117124167_117118969_117113770_117108571_117103373_117098173_117092974_117087774_117082574_117077374_117072174_117066973_117061772_117056571_117051370_117046168_117040966_117035764_117030562_117025359_117020156_117014953_117009750_117004546_116999342_116994138_116988934_116983730_116978525_116973320_116968115_116962909_116957703_116952497_116947291_116942085_116936878_116931671_116926464_116921257_116916049_116910841_116905633_116900425_116895216_116890007_116884798_116879589_116874379_116869170_116863960_116858749_116853539_116848328_116843117_116837906_116832695_116827483_116822271_116817059_116811847_116806634_116801422_116796209_116790995_116785782_116780568_116775354_116770140_116764926_116759711_116754496_116749281_116744066_116738850_116733634_116728418_116723202_116717986_116712769_116707552_116702335_116697118_116691900_116686682_116681464_116676246_116671027_116665809_116660590_116655371_116650151_116644932_116639712_116634492_116629271_116624051_116618830_116613609_116608388_116603167_116597945_116592723_116587501_116582279_116577056_116571834_116566611_116561387_116556164_116550940_116545717_116540492_116535268_116530044_116524819_116519594_116514369_116509144_116503918_116498692_116493466_116488240_116483013_116477787_116472560_116467333_116462105_116456878_116451650_116446422_116441194_116435966_116430737_116425508_116420279_116415050_116409820_116404591_116399361_116394131_116388900_116383670_116378439,
  116373208_116367977_116362746_116357514_116352282_116347050_116341818_116336586_116331353_116326120_116320887_116315654_116310420_116305187_116299953_116294719_116289484_116284250_116279015_116273780_116268545_116263310_116258074_116252838_116247602_116242366_116237130_116231893_116226656_116221419_116216182_116210945_116205707_116200469_116195231_116189993_116184755_116179516_116174277_116169038_116163799_116158559_116153320_116148080_116142840_116137599_116132359_116127118_116121878_116116636_116111395_116106154_116100912_116095670_116090428_116085186_116079943_116074701_116069458_116064215_116058972_116053728_116048485_116043241_116037997_116032752_116027508_116022263_116017019_116011774_116006528_116001283_115996037_115990791_115985545_115980299_115975053_115969806_115964560_115959313_115954065_115948818_115943570_115938323_115933075_115927827_115922578_115917330_115912081_115906832_115901583_115896334_115891084_115885835_115880585_115875335_115870085_115864834_115859584_115854333_115849082_115843831_115838579_115833328_115828076_115822824_115817572_115812320_115807067_115801814_115796562_115791309_115786055_115780802_115775548_115770294_115765040_115759786_115754532_115749277_115744023_115738768_115733513_115728257_115723002_115717746_115712490_115707234_115701978_115696722_115691465_115686209_115680952_115675695_115670437_115665180_115659922_115654664_115649406_115644148_115638890_115633631_115628372_115623114_115617854_115612595_115607336_115602076_115596816_115591556_115586296_115581036_115575775_115570515_115565254_115559993_115554732_115549470_115544209_115538947_115533685_115528423_115523160_115517898_115512635_115507373_115502110_115496846_115491583_115486320_115481056_115475792_115470528_115465264_115459999_115454735_115449470_115444205_115438940_115433675_115428410_115423144_115417878_115412612_115407346_115402080_115396814_115391547_115386280_115381013_115375746_115370479_115365211_115359944_115354676_115349408_115344140_115338872_115333603_115328335_115323066_115317797_115312528_115307258_115301989_115296719_115291450_115286180_115280910_115275639_115270369_115265098_115259827_115254556_115249285_115244014_115238743_115233471_115228199_115222927_115217655_115212383_115207111_115201838_115196565_115191292_115186019_115180746_115175473_115170199_115164925_115159651_115154377_115149103_115143829_115138554_115133280_115128005_115122730_115117455_115112179_115106904_115101628_115096352_115091076_115085800_115080524_115075248_115069971_115064694_115059417_115054140_115048863_115043586_115038308_115033031,
  115027753_115022475_115017197_115011918_115006640_115001361_114996083_114990804_114985525_114980245_114974966_114969686_114964407_114959127_114953847_114948567_114943286_114938006_114932725_114927445_114922164_114916883_114911601_114906320_114901039_114895757_114890475_114885193_114879911_114874629_114869346_114864064_114858781_114853498_114848215_114842932_114837649_114832365_114827082_114821798_114816514_114811230_114805946_114800661_114795377_114790092_114784808_114779523_114774238_114768952_114763667_114758381_114753096_114747810_114742524_114737238_114731952_114726665_114721379_114716092_114710805_114705518_114700231_114694944_114689657_114684369_114679081_114673794_114668506_114663218_114657929_114652641_114647352_114642064_114636775_114631486_114626197_114620908_114615618_114610329_114605039_114599749_114594459_114589169_114583879_114578589_114573298_114568008_114562717_114557426_114552135_114546844_114541552_114536261_114530969_114525678_114520386_114515094_114509802_114504509_114499217_114493924_114488632_114483339_114478046_114472753_114467460_114462166_114456873_114451579_114446285_114440992_114435698_114430403_114425109_114419815_114414520_114409225_114403931_114398636_114393341_114388045_114382750_114377454_114372159_114366863_114361567_114356271_114350975_114345679_114340382_114335086_114329789_114324492_114319196_114313898_114308601_114303304_114298007_114292709_114287411_114282113_114276815_114271517_114266219_114260921_114255622_114250324_114245025_114239726_114234427_114229128_114223829_114218530_114213230_114207931_114202631_114197331_114192031_114186731_114181431_114176130_114170830_114165529_114160228_114154928_114149627_114144326_114139024_114133723_114128422_114123120_114117818_114112516_114107214_114101912_114096610_114091308_114086005_114080703_114075400_114070097_114064794_114059491_114054188_114048885_114043581_114038278_114032974_114027670_114022367_114017063_114011758_114006454_114001150_113995845_113990541_113985236_113979931_113974626_113969321_113964016_113958711_113953405_113948100_113942794_113937488_113932182_113926876_113921570_113916264_113910958_113905651_113900345_113895038_113889731_113884424_113879117_113873810_113868503_113863195_113857888_113852580_113847272_113841965_113836657_113831349_113826040_113820732_113815424_113810115_113804807_113799498_113794189_113788880_113783571_113778262_113772952_113767643_113762333_113757024_113751714_113746404_113741094_113735784_113730474_113725164_113719853_113714543_113709232_113703921_113698611_113693300_113687989_113682677_113677366,
  113672055_113666743_113661432_113656120_113650808_113645496_113640184_113634872_113629560_113624248_113618935_113613623_113608310_113602997_113597684_113592371_113587058_113581745_113576432_113571118_113565805_113560491_113555177_113549864_113544550_113539236_113533922_113528607_113523293_113517979_113512664_113507349_113502035_113496720_113491405_113486090_113480775_113475459_113470144_113464829_113459513_113454197_113448882_113443566_113438250_113432934_113427618_113422301_113416985_113411669_113406352_113401035_113395719_113390402_113385085_113379768_113374451_113369133_113363816_113358499_113353181_113347863_113342546_113337228_113331910_113326592_113321274_113315956_113310637_113305319_113300000_113294682_113289363_113284044_113278725_113273406_113268087_113262768_113257449_113252129_113246810_113241490_113236171_113230851_113225531_113220211_113214891_113209571_113204251_113198931_113193610_113188290_113182969_113177648_113172328_113167007_113161686_113156365_113151044_113145722_113140401_113135080_113129758_113124437_113119115_113113793_113108471_113103149_113097827_113092505_113087183_113081861_113076538_113071216_113065893_113060570_113055248_113049925_113044602_113039279_113033956_113028633_113023309_113017986_113012662_113007339_113002015_112996692_112991368_112986044_112980720_112975396_112970072_112964747_112959423_112954099_112948774_112943450_112938125_112932800_112927475_112922150_112916825_112911500_112906175_112900850_112895524_112890199_112884873_112879548_112874222_112868896_112863571_112858245_112852919_112847592_112842266_112836940_112831614_112826287_112820961_112815634_112810307_112804981_112799654_112794327_112789000_112783673_112778346_112773018_112767691_112762364_112757036_112751709_112746381_112741053_112735725_112730398_112725070_112719742_112714413_112709085_112703757_112698429_112693100_112687772_112682443_112677114_112671786_112666457_112661128_112655799_112650470_112645141_112639812_112634482_112629153_112623823_112618494_112613164_112607835_112602505_112597175_112591845_112586515_112581185_112575855_112570525_112565195_112559864_112554534_112549203_112543873_112538542_112533211_112527881_112522550_112517219_112511888_112506557_112501225_112495894_112490563_112485232_112479900_112474569_112469237_112463905_112458574_112453242_112447910_112442578_112437246_112431914_112426582_112421249_112415917_112410585_112405252_112399920_112394587_112389254_112383922_112378589_112373256_112367923_112362590_112357257_112351924_112346591_112341257_112335924_112330590_112325257_112319923_112314590,
  112309256_112303922_112298588_112293255_112287921_112282587_112277252_112271918_112266584_112261250_112255915_112250581_112245246_112239912_112234577_112229242_112223908_112218573_112213238_112207903_112202568_112197233_112191898_112186562_112181227_112175892_112170556_112165221_112159885_112154550_112149214_112143878_112138542_112133207_112127871_112122535_112117199_112111862_112106526_112101190_112095854_112090517_112085181_112079844_112074508_112069171_112063835_112058498_112053161_112047824_112042487_112037150_112031813_112026476_112021139_112015802_112010464_112005127_111999789_111994452_111989114_111983777_111978439_111973102_111967764_111962426_111957088_111951750_111946412_111941074_111935736_111930398_111925059_111919721_111914383_111909044_111903706_111898367_111893029_111887690_111882351_111877013_111871674_111866335_111860996_111855657_111850318_111844979_111839640_111834300_111828961_111823622_111818282_111812943_111807603_111802264_111796924_111791585_111786245_111780905_111775565_111770225_111764885_111759545_111754205_111748865_111743525_111738185_111732845_111727504_111722164_111716824_111711483_111706143_111700802_111695461_111690121_111684780_111679439_111674098_111668757_111663416_111658075_111652734_111647393_111642052_111636711_111631370_111626028_111620687_111615346_111610004_111604663_111599321_111593979_111588638_111583296_111577954_111572612_111567271_111561929_111556587_111551245_111545903_111540560_111535218_111529876_111524534_111519191_111513849_111508507_111503164_111497822_111492479_111487137_111481794_111476451_111471109_111465766_111460423_111455080_111449737_111444394_111439051_111433708_111428365_111423022_111417678_111412335_111406992_111401649_111396305_111390962_111385618_111380275_111374931_111369587_111364244_111358900_111353556_111348212_111342869_111337525_111332181_111326837_111321493_111316149_111310804_111305460_111300116_111294772_111289428_111284083_111278739_111273394_111268050_111262705_111257361_111252016_111246672_111241327_111235982_111230637_111225293_111219948_111214603_111209258_111203913_111198568_111193223_111187878_111182533_111177187_111171842_111166497_111161152_111155806_111150461_111145115_111139770_111134424_111129079_111123733_111118388_111113042_111107696_111102350_111097005_111091659_111086313_111080967_111075621_111070275_111064929_111059583_111054237_111048891_111043545_111038198_111032852_111027506_111022159_111016813_111011467_111006120_111000774_110995427_110990081_110984734_110979387_110974041_110968694_110963347_110958000_110952654_110947307,
  110941960_110936613_110931266_110925919_110920572_110915225_110909878_110904530_110899183_110893836_110888489_110883142_110877794_110872447_110867099_110861752_110856405_110851057_110845709_110840362_110835014_110829667_110824319_110818971_110813624_110808276_110802928_110797580_110792232_110786884_110781536_110776188_110770840_110765492_110760144_110754796_110749448_110744100_110738752_110733403_110728055_110722707_110717359_110712010_110706662_110701313_110695965_110690616_110685268_110679919_110674571_110669222_110663873_110658525_110653176_110647827_110642479_110637130_110631781_110626432_110621083_110615734_110610385_110605036_110599687_110594338_110588989_110583640_110578291_110572942_110567593_110562243_110556894_110551545_110546196_110540846_110535497_110530147_110524798_110519449_110514099_110508750_110503400_110498051_110492701_110487351_110482002_110476652_110471302_110465953_110460603_110455253_110449903_110444553_110439204_110433854_110428504_110423154_110417804_110412454_110407104_110401754_110396404_110391054_110385704_110380353_110375003_110369653_110364303_110358953_110353602_110348252_110342902_110337551_110332201_110326850_110321500_110316150_110310799_110305449_110300098_110294748_110289397_110284046_110278696_110273345_110267994_110262644_110257293_110251942_110246592_110241241_110235890_110230539_110225188_110219837_110214487_110209136_110203785_110198434_110193083_110187732_110182381_110177030_110171679_110166327_110160976_110155625_110150274_110144923_110139572_110134220_110128869_110123518_110118167_110112815_110107464_110102113_110096761_110091410_110086058_110080707_110075355_110070004_110064652_110059301_110053949_110048598_110043246_110037895_110032543_110027191_110021840_110016488_110011136_110005785_110000433_109995081_109989729_109984378_109979026_109973674_109968322_109962970_109957618_109952266_109946914_109941563_109936211_109930859_109925507_109920155_109914803_109909451_109904098_109898746_109893394_109888042_109882690_109877338_109871986_109866633_109861281_109855929_109850577_109845225_109839872_109834520_109829168_109823815_109818463_109813111_109807758_109802406_109797053_109791701_109786349_109780996_109775644_109770291_109764939_109759586_109754234_109748881_109743529_109738176_109732823_109727471_109722118_109716766_109711413_109706060_109700708_109695355_109690002_109684649_109679297_109673944_109668591_109663238_109657886_109652533_109647180_109641827_109636474_109631121_109625769_109620416_109615063_109609710_109604357_109599004_109593651_109588298_109582945_109577592,
  109572239_109566886_109561533_109556180_109550827_109545474_109540121_109534768_109529415_109524062_109518708_109513355_109508002_109502649_109497296_109491943_109486589_109481236_109475883_109470530_109465177_109459823_109454470_109449117_109443764_109438410_109433057_109427704_109422350_109416997_109411644_109406290_109400937_109395584_109390230_109384877_109379523_109374170_109368817_109363463_109358110_109352756_109347403_109342049_109336696_109331342_109325989_109320635_109315282_109309928_109304575_109299221_109293868_109288514_109283161_109277807_109272453_109267100_109261746_109256393_109251039_109245685_109240332_109234978_109229624_109224271_109218917_109213563_109208210_109202856_109197502_109192149_109186795_109181441_109176088_109170734_109165380_109160026_109154673_109149319_109143965_109138611_109133257_109127904_109122550_109117196_109111842_109106489_109101135_109095781_109090427_109085073_109079719_109074366_109069012_109063658_109058304_109052950_109047596_109042242_109036888_109031535_109026181_109020827_109015473_109010119_109004765_108999411_108994057_108988703_108983349_108977995_108972642_108967288_108961934_108956580_108951226_108945872_108940518_108935164_108929810_108924456_108919102_108913748_108908394_108903040_108897686_108892332_108886978_108881624_108876270_108870916_108865562_108860208_108854854_108849500_108844146_108838792_108833438_108828084_108822730_108817376_108812022_108806668_108801314_108795960_108790605_108785251_108779897_108774543_108769189_108763835_108758481_108753127_108747773_108742419_108737065_108731711_108726357_108721003_108715649_108710294_108704940_108699586_108694232_108688878_108683524_108678170_108672816_108667462_108662108_108656754_108651400_108646045_108640691_108635337_108629983_108624629_108619275_108613921_108608567_108603213_108597859_108592505_108587151_108581796_108576442_108571088_108565734_108560380_108555026_108549672_108544318_108538964_108533610_108528256_108522901_108517547_108512193_108506839_108501485_108496131_108490777_108485423_108480069_108474715_108469361_108464007_108458653_108453298_108447944_108442590_108437236_108431882_108426528_108421174_108415820_108410466_108405112_108399758_108394404_108389050_108383696_108378342_108372988_108367634_108362280_108356926_108351572_108346217_108340863_108335509_108330155_108324801_108319447_108314093_108308739_108303385_108298031_108292677_108287323_108281969_108276615_108271261_108265907_108260553_108255199_108249846_108244492_108239138_108233784_108228430_108223076_108217722_108212368_108207014,
  108201660_108196306_108190952_108185598_108180244_108174890_108169536_108164183_108158829_108153475_108148121_108142767_108137413_108132059_108126705_108121351_108115998_108110644_108105290_108099936_108094582_108089228_108083874_108078521_108073167_108067813_108062459_108057105_108051752_108046398_108041044_108035690_108030336_108024983_108019629_108014275_108008921_108003568_107998214_107992860_107987506_107982153_107976799_107971445_107966092_107960738_107955384_107950030_107944677_107939323_107933969_107928616_107923262_107917908_107912555_107907201_107901848_107896494_107891140_107885787_107880433_107875080_107869726_107864372_107859019_107853665_107848312_107842958_107837605_107832251_107826897_107821544_107816190_107810837_107805483_107800130_107794776_107789423_107784070_107778716_107773363_107768009_107762656_107757302_107751949_107746595_107741242_107735889_107730535_107725182_107719829_107714475_107709122_107703768_107698415_107693062_107687708_107682355_107677002_107671649_107666295_107660942_107655589_107650235_107644882_107639529_107634176_107628823_107623469_107618116_107612763_107607410_107602057_107596703_107591350_107585997_107580644_107575291_107569938_107564585_107559231_107553878_107548525_107543172_107537819_107532466_107527113_107521760_107516407_107511054_107505701_107500348_107494995_107489642_107484289_107478936_107473583_107468230_107462877_107457524_107452172_107446819_107441466_107436113_107430760_107425407_107420054_107414701_107409349_107403996_107398643_107393290_107387937_107382585_107377232_107371879_107366527_107361174_107355821_107350468_107345116_107339763_107334410_107329058_107323705_107318352_107313000_107307647_107302295_107296942_107291589_107286237_107280884_107275532_107270179_107264827_107259474_107254122_107248769_107243417_107238064_107232712_107227359_107222007_107216655_107211302_107205950_107200597_107195245_107189893_107184540_107179188_107173836_107168483_107163131_107157779_107152427_107147074_107141722_107136370_107131018_107125665_107120313_107114961_107109609_107104257_107098905_107093552_107088200_107082848_107077496_107072144_107066792_107061440_107056088_107050736_107045384_107040032_107034680_107029328_107023976_107018624_107013272_107007920_107002568_106997216_106991864_106986513_106981161_106975809_106970457_106965105_106959753_106954402_106949050_106943698_106938346_106932995_106927643_106922291_106916940_106911588_106906236_106900885_106895533_106890181_106884830_106879478_106874127_106868775_106863423_106858072_106852720_106847369_106842017_106836666,
  106831314_106825963_106820611_106815260_106809909_106804557_106799206_106793854_106788503_106783152_106777800_106772449_106767098_106761747_106756395_106751044_106745693_106740342_106734990_106729639_106724288_106718937_106713586_106708235_106702883_106697532_106692181_106686830_106681479_106676128_106670777_106665426_106660075_106654724_106649373_106644022_106638671_106633320_106627969_106622618_106617268_106611917_106606566_106601215_106595864_106590513_106585163_106579812_106574461_106569110_106563760_106558409_106553058_106547707_106542357_106537006_106531655_106526305_106520954_106515604_106510253_106504903_106499552_106494201_106488851_106483500_106478150_106472800_106467449_106462099_106456748_106451398_106446047_106440697_106435347_106429996_106424646_106419296_106413945_106408595_106403245_106397895_106392545_106387194_106381844_106376494_106371144_106365794_106360444_106355093_106349743_106344393_106339043_106333693_106328343_106322993_106317643_106312293_106306943_106301593_106296243_106290893_106285543_106280194_106274844_106269494_106264144_106258794_106253444_106248095_106242745_106237395_106232045_106226696_106221346_106215996_106210647_106205297_106199947_106194598_106189248_106183899_106178549_106173199_106167850_106162500_106157151_106151801_106146452_106141103_106135753_106130404_106125054_106119705_106114356_106109006_106103657_106098308_106092958_106087609_106082260_106076911_106071561_106066212_106060863_106055514_106050165_106044816_106039466_106034117_106028768_106023419_106018070_106012721_106007372_106002023_105996674_105991325_105985976_105980627_105975278_105969929_105964581_105959232_105953883_105948534_105943185_105937836_105932488_105927139_105921790_105916442_105911093_105905744_105900395_105895047_105889698_105884350_105879001_105873652_105868304_105862955_105857607_105852258_105846910_105841561_105836213_105830864_105825516_105820168_105814819_105809471_105804123_105798774_105793426_105788078_105782729_105777381_105772033_105766685_105761337_105755988_105750640_105745292_105739944_105734596_105729248_105723900_105718552_105713204_105707856_105702508_105697160_105691812_105686464_105681116_105675768_105670420_105665072_105659724_105654376_105649029_105643681_105638333_105632985_105627637_105622290_105616942_105611594_105606247_105600899_105595551_105590204_105584856_105579509_105574161_105568813_105563466_105558118_105552771_105547423_105542076_105536729_105531381_105526034_105520686_105515339_105509992_105504644_105499297_105493950_105488603_105483255_105477908_105472561_105467214,
  105461866_105456519_105451172_105445825_105440478_105435131_105429784_105424437_105419090_105413743_105408396_105403049_105397702_105392355_105387008_105381661_105376314_105370967_105365621_105360274_105354927_105349580_105344233_105338887_105333540_105328193_105322847_105317500_105312153_105306807_105301460_105296113_105290767_105285420_105280074_105274727_105269381_105264034_105258688_105253341_105247995_105242648_105237302_105231956_105226609_105221263_105215917_105210570_105205224_105199878_105194532_105189185_105183839_105178493_105173147_105167801_105162455_105157108_105151762_105146416_105141070_105135724_105130378_105125032_105119686_105114340_105108994_105103648_105098302_105092957_105087611_105082265_105076919_105071573_105066227_105060882_105055536_105050190_105044845_105039499_105034153_105028807_105023462_105018116_105012771_105007425_105002079_104996734_104991388_104986043_104980697_104975352_104970007_104964661_104959316_104953970_104948625_104943280_104937934_104932589_104927244_104921898_104916553_104911208_104905863_104900517_104895172_104889827_104884482_104879137_104873792_104868447_104863102_104857756_104852411_104847066_104841721_104836376_104831032_104825687_104820342_104814997_104809652_104804307_104798962_104793617_104788273_104782928_104777583_104772238_104766894_104761549_104756204_104750859_104745515_104740170_104734826_104729481_104724136_104718792_104713447_104708103_104702758_104697414_104692069_104686725_104681380_104676036_104670692_104665347_104660003_104654659_104649314_104643970_104638626_104633281_104627937_104622593_104617249_104611905_104606560_104601216_104595872_104590528_104585184_104579840_104574496_104569152_104563808_104558464_104553120_104547776_104542432_104537088_104531744_104526400_104521056_104515712_104510369_104505025_104499681_104494337_104488994_104483650_104478306_104472962_104467619_104462275_104456931_104451588_104446244_104440901_104435557_104430213_104424870_104419526_104414183_104408839_104403496_104398153_104392809_104387466_104382122_104376779_104371436_104366092_104360749_104355406_104350062_104344719_104339376_104334033_104328690_104323346_104318003_104312660_104307317_104301974_104296631_104291288_104285945_104280602_104275259_104269916_104264573_104259230_104253887_104248544_104243201_104237858_104232515_104227172_104221830_104216487_104211144_104205801_104200458_104195116_104189773_104184430_104179088_104173745_104168402_104163060_104157717_104152375_104147032_104141689_104136347_104131004_104125662_104120319_104114977_104109635_104104292_104098950,
  104093607_104088265_104082923_104077580_104072238_104066896_104061553_104056211_104050869_104045527_104040184_104034842_104029500_104024158_104018816_104013474_104008132_104002789_103997447_103992105_103986763_103981421_103976079_103970737_103965395_103960054_103954712_103949370_103944028_103938686_103933344_103928002_103922660_103917319_103911977_103906635_103901293_103895952_103890610_103885268_103879927_103874585_103869243_103863902_103858560_103853219_103847877_103842535_103837194_103831852_103826511_103821169_103815828_103810487_103805145_103799804_103794462_103789121_103783780_103778438_103773097_103767756_103762414_103757073_103751732_103746391_103741049_103735708_103730367_103725026_103719685_103714344_103709003_103703661_103698320_103692979_103687638_103682297_103676956_103671615_103666274_103660933_103655592_103650252_103644911_103639570_103634229_103628888_103623547_103618206_103612866_103607525_103602184_103596843_103591503_103586162_103580821_103575481_103570140_103564799_103559459_103554118_103548777_103543437_103538096_103532756_103527415_103522075_103516734_103511394_103506053_103500713_103495372_103490032_103484692_103479351_103474011_103468671_103463330_103457990_103452650_103447309_103441969_103436629_103431289_103425948_103420608_103415268_103409928_103404588_103399248_103393908_103388568_103383227_103377887_103372547_103367207_103361867_103356527_103351187_103345847_103340507_103335168_103329828_103324488_103319148_103313808_103308468_103303128_103297788_103292449_103287109_103281769_103276429_103271090_103265750_103260410_103255071_103249731_103244391_103239052_103233712_103228372_103223033_103217693_103212354_103207014_103201675_103196335_103190996_103185656_103180317_103174977_103169638_103164298_103158959_103153620_103148280_103142941_103137602_103132262_103126923_103121584_103116244_103110905_103105566_103100227_103094888_103089548_103084209_103078870_103073531_103068192_103062853_103057514_103052174_103046835_103041496_103036157_103030818_103025479_103020140_103014801_103009462_103004123_102998784_102993446_102988107_102982768_102977429_102972090_102966751_102961412_102956074_102950735_102945396_102940057_102934718_102929380_102924041_102918702_102913364_102908025_102902686_102897348_102892009_102886670_102881332_102875993_102870655_102865316_102859977_102854639_102849300_102843962_102838623_102833285_102827947_102822608_102817270_102811931_102806593_102801254_102795916_102790578_102785239_102779901_102774563_102769224_102763886_102758548_102753210_102747871_102742533_102737195_102731857,
  102726519_102721180_102715842_102710504_102705166_102699828_102694490_102689152_102683814_102678476_102673138_102667800_102662462_102657124_102651786_102646448_102641110_102635772_102630434_102625096_102619758_102614420_102609082_102603744_102598406_102593069_102587731_102582393_102577055_102571717_102566380_102561042_102555704_102550366_102545029_102539691_102534353_102529016_102523678_102518340_102513003_102507665_102502328_102496990_102491652_102486315_102480977_102475640_102470302_102464965_102459627_102454290_102448952_102443615_102438277_102432940_102427602_102422265_102416928_102411590_102406253_102400915_102395578_102390241_102384903_102379566_102374229_102368892_102363554_102358217_102352880_102347543_102342205_102336868_102331531_102326194_102320857_102315519_102310182_102304845_102299508_102294171_102288834_102283497_102278160_102272823_102267486_102262149_102256812_102251475_102246138_102240801_102235464_102230127_102224790_102219453_102214116_102208779_102203442_102198105_102192768_102187431_102182095_102176758_102171421_102166084_102160747_102155410_102150074_102144737_102139400_102134063_102128727_102123390_102118053_102112716_102107380_102102043_102096706_102091370_102086033_102080697_102075360_102070023_102064687_102059350_102054014_102048677_102043340_102038004_102032667_102027331_102021994_102016658_102011321_102005985_102000648_101995312_101989975_101984639_101979303_101973966_101968630_101963293_101957957_101952621_101947284_101941948_101936612_101931275_101925939_101920603_101915266_101909930_101904594_101899258_101893921_101888585_101883249_101877913_101872576_101867240_101861904_101856568_101851232_101845895_101840559_101835223_101829887_101824551_101819215_101813879_101808543_101803207_101797870_101792534_101787198_101781862_101776526_101771190_101765854_101760518_101755182_101749846_101744510_101739174_101733838_101728502_101723167_101717831_101712495_101707159_101701823_101696487_101691151_101685815_101680479_101675144_101669808_101664472_101659136_101653800_101648464_101643129_101637793_101632457_101627121_101621786_101616450_101611114_101605778_101600443_101595107_101589771_101584436_101579100_101573764_101568429_101563093_101557757_101552422_101547086_101541750_101536415_101531079_101525744_101520408_101515072_101509737_101504401_101499066_101493730_101488395_101483059_101477724_101472388_101467053_101461717_101456382_101451046_101445711_101440375_101435040_101429704_101424369_101419033_101413698_101408363_101403027_101397692_101392356_101387021_101381686_101376350_101371015_101365680,
  101360344_101355009_101349673_101344338_101339003_101333668_101328332_101322997_101317662_101312326_101306991_101301656_101296321_101290985_101285650_101280315_101274980_101269644_101264309_101258974_101253639_101248304_101242968_101237633_101232298_101226963_101221628_101216293_101210958_101205622_101200287_101194952_101189617_101184282_101178947_101173612_101168277_101162942_101157606_101152271_101146936_101141601_101136266_101130931_101125596_101120261_101114926_101109591_101104256_101098921_101093586_101088251_101082916_101077581_101072246_101066911_101061576_101056241_101050906_101045571_101040236_101034902_101029567_101024232_101018897_101013562_101008227_101002892_100997557_100992222_100986887_100981553_100976218_100970883_100965548_100960213_100954878_100949543_100944209_100938874_100933539_100928204_100922869_100917535_100912200_100906865_100901530_100896195_100890861_100885526_100880191_100874856_100869522_100864187_100858852_100853517_100848183_100842848_100837513_100832178_100826844_100821509_100816174_100810839_100805505_100800170_100794835_100789501_100784166_100778831_100773497_100768162_100762827_100757493_100752158_100746823_100741489_100736154_100730819_100725485_100720150_100714815_100709481_100704146_100698812_100693477_100688142_100682808_100677473_100672139_100666804_100661469_100656135_100650800_100645466_100640131_100634797_100629462_100624127_100618793_100613458_100608124_100602789_100597455_100592120_100586786_100581451_100576116_100570782_100565447_100560113_100554778_100549444_100544109_100538775_100533440_100528106_100522771_100517437_100512102_100506768_100501433_100496099_100490764_100485430_100480095_100474761_100469426_100464092_100458758_100453423_100448089_100442754_100437420_100432085_100426751_100421416_100416082_100410747_100405413_100400079_100394744_100389410_100384075_100378741_100373406_100368072_100362738_100357403_100352069_100346734_100341400_100336065_100330731_100325397_100320062_100314728_100309393_100304059_100298725_100293390_100288056_100282721_100277387_100272053_100266718_100261384_100256049_100250715_100245381_100240046_100234712_100229378_100224043_100218709_100213374_100208040_100202706_100197371_100192037_100186703_100181368_100176034_100170699_100165365_100160031_100154696_100149362_100144028_100138693_100133359_100128025_100122690_100117356_100112021_100106687_100101353_100096018_100090684_100085350_100080015_100074681_100069347_100064012_100058678_100053344_100048009_100042675_100037340_100032006_100026672_100021337_100016003_100010669_100005334_100000000]

/-- `_acg6_vtable`, pmesh/_window_acg.h:8320-10368: 8192 entries. -/
def acg6Rows : List ℕ := [
  130253385_130253384_130253381_130253375_130253368_130253359_130253348_130253335_130253319_130253302_130253283_130253261_130253238_130253212_130253185_130253155_130253124_130253090_130253054_130253017_130252977_130252935_130252891_130252846_130252798_130252748_130252696_130252642_130252586_130252528_130252467_130252405_130252341_130252275_130252207_130252136_130252064_130251990_130251913_130251835_130251754_130251672_130251587_130251500_130251412_130251321_130251228_130251134_130251037_130250938_130250837_130250734_130250629_130250522_130250413_130250302_130250189_130250074_130249957_130249837_130249716_130249593_130249468_130249340_130249211_130249079_130248946_130248810_130248673_130248533_130248392_130248248_130248102_130247954_130247805_130247653_130247499_130247343_130247185_130247025_130246863_130246699_130246533_130246365_130246195_130246023_130245848_130245672_130245494_130245314_130245131_130244947_130244760_130244572_130244381_130244189_130243994_130243798_130243599_130243398_130243196_130242991_130242784_130242575_130242364_130242151_130241936_130241719_130241500_130241279_130241056_130240831_130240604_130240375_130240144_130239910_130239675_130239438_130239198_130238957_130238713_130238468_130238220_130237971_130237719_130237466_130237210_130236952_130236693_130236431_130236167_130235901_130235633_130235363_130235091_130234817_130234541_130234263_130233983_130233701_130233417_130233131_130232843_130232552_130232260_130231966_130231670_130231371_130231071_130230768_130230464_130230157_130229849_130229538_130229226_130228911_130228594_130228275_130227955_130227632_130227307_130226980_130226651_130226321_130225988_130225653_130225316_130224977_130224635_130224292_130223947_130223600_130223251_130222900_130222546_130222191_130221834_130221474_130221113_130220749_130220384_130220016_130219647_130219275_130218902_130218526_130218149_130217769_130217387_130217003_130216618_130216230_130215840_130215448_130215054_130214658_130214260_130213860_130213458_130213054_130212648_130212240_130211830_130211418_130211004_130210587_130210169_130209749_130209326_130208902_130208476_130208047_130207617_130207184_130206750_130206313_130205875_130205434_130204992_130204547_130204100_130203652_130203201_130202748_130202293_130201837_130201378_130200917_130200454_130199989_130199522_130199053_130198582_130198109_130197634_130197157_130196678_130196197_130195713_130195228_130194741_130194252_130193761_130193267_130192772_130192275_130191775_130191274_130190770_130190265_130189757_130189248_130188736_130188223_130187707_130187190,
  130186670_130186148_130185625_130185099_130184571_130184041_130183510_130182976_130182440_130181902_130181362_130180820_130180276_130179730_130179182_130178632_130178080_130177526_130176970_130176412_130175852_130175290_130174726_130174160_130173591_130173021_130172449_130171875_130171298_130170720_130170140_130169557_130168973_130168387_130167798_130167208_130166615_130166021_130165424_130164826_130164225_130163622_130163018_130162411_130161803_130161192_130160579_130159965_130159348_130158729_130158108_130157486_130156861_130156234_130155605_130154974_130154341_130153707_130153070_130152431_130151790_130151147_130150502_130149855_130149206_130148555_130147902_130147247_130146590_130145931_130145269_130144606_130143941_130143274_130142605_130141934_130141260_130140585_130139908_130139229_130138547_130137864_130137179_130136491_130135802_130135111_130134417_130133722_130133024_130132325_130131624_130130920_130130215_130129507_130128798_130128086_130127373_130126657_130125940_130125220_130124499_130123775_130123049_130122322_130121592_130120860_130120127_130119391_130118654_130117914_130117172_130116428_130115683_130114935_130114185_130113434_130112680_130111924_130111166_130110406_130109645_130108881_130108115_130107347_130106577_130105805_130105032_130104256_130103478_130102698_130101916_130101132_130100346_130099558_130098768_130097977_130097183_130096387_130095589_130094789_130093987_130093183_130092377_130091569_130090759_130089947_130089133_130088317_130087499_130086679_130085857_130085033_130084207_130083379_130082549_130081716_130080882_130080046_130079208_130078368_130077526_130076682_130075836_130074988_130074138_130073286_130072432_130071576_130070717_130069857_130068995_130068131_130067265_130066397_130065527_130064655_130063781_130062904_130062026_130061146_130060264_130059380_130058494_130057606_130056716_130055824_130054929_130054033_130053135_130052235_130051333_130050429_130049523_130048615_130047705_130046792_130045878_130044962_130044044_130043124_130042202_130041278_130040352_130039424_130038494_130037562_130036627_130035691_130034753_130033813_130032871_130031927_130030981_130030033_130029083_130028131_130027177_130026221_130025263_130024303_130023341_130022377_130021411_130020443_130019473_130018501_130017527_130016551_130015573_130014594_130013612_130012628_130011642_130010654_130009664_130008672_130007678_130006683_130005685_130004685_130003683_130002679_130001673_130000666_129999656_129998644_129997630_129996615_129995597_129994577_129993556_129992532_129991506_129990479_129989449_129988417,
  129987384_129986348_129985311_129984271_129983229_129982186_129981140_129980093_129979043_129977992_129976938_129975883_129974825_129973766_129972705_129971641_129970576_129969509_129968439_129967368_129966295_129965219_129964142_129963063_129961982_129960898_129959813_129958726_129957637_129956546_129955453_129954358_129953261_129952161_129951060_129949957_129948852_129947746_129946637_129945526_129944413_129943298_129942181_129941062_129939941_129938819_129937694_129936567_129935438_129934308_129933175_129932040_129930904_129929765_129928625_129927482_129926338_129925191_129924043_129922892_129921740_129920586_129919429_129918271_129917111_129915948_129914784_129913618_129912450_129911279_129910107_129908933_129907757_129906579_129905399_129904217_129903033_129901847_129900659_129899470_129898278_129897084_129895888_129894690_129893491_129892289_129891085_129889880_129888672_129887463_129886251_129885038_129883822_129882605_129881386_129880164_129878941_129877716_129876489_129875259_129874028_129872795_129871560_129870323_129869084_129867843_129866600_129865355_129864108_129862859_129861609_129860356_129859101_129857845_129856586_129855325_129854063_129852798_129851532_129850263_129848993_129847721_129846446_129845170_129843892_129842612_129841330_129840046_129838759_129837471_129836182_129834890_129833596_129832300_129831002_129829702_129828401_129827097_129825791_129824484_129823174_129821863_129820549_129819234_129817917_129816597_129815276_129813953_129812628_129811301_129809972_129808641_129807308_129805973_129804636_129803297_129801957_129800614_129799269_129797923_129796574_129795224_129793871_129792517_129791160_129789802_129788442_129787080_129785716_129784349_129782981_129781611_129780240_129778866_129777490_129776112_129774732_129773351_129771967_129770582_129769194_129767805_129766413_129765020_129763625_129762228_129760829_129759428_129758025_129756620_129755213_129753804_129752393_129750980_129749566_129748149_129746731_129745310_129743888_129742463_129741037_129739609_129738179_129736747_129735312_129733877_129732439_129730999_129729557_129728113_129726668_129725220_129723770_129722319_129720866_129719410_129717953_129716494_129715033_129713570_129712105_129710638_129709169_129707698_129706225_129704751_129703274_129701796_129700315_129698833_129697348_129695862_129694374_129692884_129691392_129689898_129688402_129686904_129685405_129683903_129682399_129680894_129679386_129677877_129676366_129674852_129673337_129671820_129670301_129668780_129667257_129665733_129664206_129662677_129661147_129659614,
  129658080_129656544_129655005_129653465_129651923_129650379_129648833_129647286_129645736_129644184_129642631_129641075_129639518_129637958_129636397_129634834_129633269_129631702_129630133_129628562_129626989_129625415_129623838_129622259_129620679_129619097_129617512_129615926_129614338_129612748_129611156_129609562_129607967_129606369_129604770_129603168_129601565_129599959_129598352_129596743_129595132_129593519_129591904_129590288_129588669_129587048_129585426_129583801_129582175_129580547_129578917_129577285_129575651_129574015_129572377_129570738_129569096_129567453_129565807_129564160_129562511_129560860_129559207_129557552_129555895_129554237_129552576_129550914_129549249_129547583_129545915_129544245_129542573_129540899_129539223_129537545_129535866_129534184_129532501_129530816_129529129_129527440_129525749_129524056_129522361_129520664_129518966_129517265_129515563_129513859_129512153_129510445_129508735_129507023_129505309_129503594_129501876_129500157_129498436_129496712_129494987_129493260_129491532_129489801_129488068_129486334_129484597_129482859_129481119_129479377_129477633_129475887_129474140_129472390_129470638_129468885_129467130_129465373_129463614_129461853_129460090_129458325_129456559_129454790_129453020_129451248_129449474_129447698_129445920_129444140_129442359_129440575_129438790_129437003_129435213_129433422_129431630_129429835_129428038_129426240_129424439_129422637_129420833_129419027_129417219_129415409_129413597_129411784_129409969_129408151_129406332_129404511_129402688_129400863_129399037_129397208_129395378_129393546_129391712_129389876_129388038_129386198_129384356_129382513_129380668_129378820_129376971_129375120_129373268_129371413_129369556_129367698_129365838_129363975_129362111_129360246_129358378_129356508_129354637_129352763_129350888_129349011_129347132_129345252_129343369_129341484_129339598_129337710_129335820_129333928_129332034_129330138_129328241_129326341_129324440_129322537_129320632_129318725_129316817_129314906_129312994_129311080_129309164_129307246_129305326_129303404_129301481_129299555_129297628_129295699_129293768_129291835_129289901_129287964_129286026_129284086_129282144_129280200_129278254_129276307_129274357_129272406_129270453_129268498_129266541_129264582_129262622_129260660_129258695_129256729_129254762_129252792_129250820_129248847_129246872_129244895_129242916_129240935_129238952_129236968_129234981_129232993_129231003_129229012_129227018_129225022_129223025_129221026_129219025_129217022_129215017_129213011_129211002_129208992_129206980_129204966,
  129202951_129200933_129198914_129196893_129194870_129192845_129190818_129188789_129186759_129184727_129182693_129180657_129178619_129176580_129174538_129172495_129170450_129168403_129166355_129164304_129162252_129160198_129158142_129156084_129154025_129151963_129149900_129147835_129145768_129143699_129141629_129139556_129137482_129135406_129133328_129131248_129129167_129127084_129124998_129122912_129120823_129118732_129116640_129114546_129112450_129110352_129108252_129106151_129104047_129101942_129099835_129097726_129095616_129093504_129091389_129089273_129087156_129085036_129082914_129080791_129078666_129076539_129074411_129072280_129070148_129068014_129065878_129063740_129061601_129059459_129057316_129055171_129053024_129050876_129048725_129046573_129044419_129042263_129040106_129037946_129035785_129033622_129031458_129029291_129027123_129024952_129022780_129020607_129018431_129016254_129014074_129011893_129009711_129007526_129005340_129003151_129000961_128998770_128996576_128994381_128992184_128989985_128987784_128985581_128983377_128981171_128978963_128976753_128974542_128972328_128970113_128967896_128965678_128963457_128961235_128959011_128956785_128954558_128952328_128950097_128947864_128945629_128943393_128941155_128938914_128936673_128934429_128932183_128929936_128927687_128925436_128923184_128920929_128918673_128916415_128914156_128911894_128909631_128907366_128905099_128902831_128900560_128898288_128896014_128893738_128891461_128889182_128886901_128884618_128882333_128880047_128877759_128875469_128873177_128870884_128868589_128866292_128863993_128861692_128859390_128857086_128854780_128852473_128850163_128847852_128845539_128843225_128840908_128838590_128836270_128833948_128831625_128829300_128826973_128824644_128822313_128819981_128817647_128815311_128812974_128810634_128808293_128805950_128803606_128801259_128798911_128796561_128794210_128791856_128789501_128787144_128784786_128782425_128780063_128777699_128775333_128772966_128770597_128768226_128765853_128763479_128761103_128758725_128756345_128753964_128751580_128749195_128746809_128744420_128742030_128739638_128737244_128734849_128732452_128730053_128727652_128725250_128722846_128720440_128718032_128715623_128713212_128710799_128708384_128705968_128703550_128701130_128698709_128696285_128693860_128691434_128689005_128686575_128684143_128681709_128679274_128676837_128674398_128671957_128669515_128667070_128664625_128662177_128659728_128657277_128654824_128652369_128649913_128647455_128644996_128642534_128640071_128637606_128635140_128632671_128630201,
  128627729_128625256_128622781_128620304_128617825_128615345_128612863_128610379_128607893_128605406_128602917_128600426_128597934_128595440_128592944_128590446_128587947_128585446_128582943_128580438_128577932_128575424_128572915_128570403_128567890_128565376_128562859_128560341_128557821_128555299_128552776_128550251_128547724_128545196_128542666_128540134_128537600_128535065_128532528_128529989_128527449_128524907_128522363_128519817_128517270_128514721_128512171_128509618_128507064_128504508_128501951_128499392_128496831_128494268_128491704_128489138_128486571_128484001_128481430_128478857_128476283_128473707_128471129_128468550_128465968_128463385_128460801_128458214_128455626_128453037_128450445_128447852_128445258_128442661_128440063_128437463_128434862_128432258_128429653_128427047_128424439_128421829_128419217_128416604_128413989_128411372_128408754_128406133_128403512_128400888_128398263_128395636_128393008_128390378_128387746_128385112_128382477_128379840_128377202_128374561_128371919_128369276_128366631_128363984_128361335_128358685_128356033_128353379_128350724_128348067_128345408_128342748_128340086_128337422_128334757_128332090_128329421_128326751_128324079_128321405_128318729_128316052_128313374_128310693_128308011_128305328_128302642_128299955_128297267_128294576_128291884_128289190_128286495_128283798_128281099_128278399_128275697_128272994_128270288_128267581_128264873_128262162_128259450_128256737_128254022_128251305_128248586_128245866_128243144_128240421_128237695_128234969_128232240_128229510_128226778_128224045_128221310_128218573_128215835_128213095_128210353_128207610_128204865_128202118_128199370_128196620_128193869_128191115_128188361_128185604_128182846_128180086_128177325_128174562_128171797_128169031_128166263_128163493_128160722_128157949_128155175_128152399_128149621_128146841_128144060_128141278_128138493_128135707_128132920_128130131_128127340_128124547_128121753_128118958_128116160_128113361_128110561_128107758_128104954_128102149_128099342_128096533_128093723_128090911_128088097_128085282_128082465_128079646_128076826_128074005_128071181_128068356_128065530_128062701_128059871_128057040_128054207_128051372_128048536_128045698_128042858_128040017_128037174_128034330_128031484_128028636_128025787_128022936_128020084_128017230_128014374_128011517_128008658_128005797_128002935_128000071_127997206_127994339_127991471_127988600_127985729_127982855_127979980_127977104_127974226_127971346_127968464_127965581_127962697_127959811_127956923_127954033_127951142_127948250_127945356_127942460,
  127939562_127936663_127933763_127930861_127927957_127925052_127922145_127919236_127916326_127913414_127910501_127907586_127904669_127901751_127898832_127895910_127892987_127890063_127887137_127884209_127881280_127878349_127875417_127872483_127869547_127866610_127863671_127860731_127857789_127854846_127851901_127848954_127846006_127843056_127840105_127837152_127834197_127831241_127828283_127825324_127822363_127819401_127816437_127813471_127810504_127807536_127804565_127801593_127798620_127795645_127792669_127789690_127786711_127783729_127780747_127777762_127774776_127771789_127768800_127765809_127762817_127759823_127756828_127753831_127750832_127747832_127744830_127741827_127738823_127735816_127732808_127729799_127726788_127723776_127720761_127717746_127714729_127711710_127708690_127705668_127702644_127699619_127696593_127693565_127690535_127687504_127684471_127681437_127678401_127675364_127672325_127669285_127666243_127663199_127660154_127657107_127654059_127651009_127647958_127644905_127641851_127638795_127635737_127632678_127629618_127626556_127623492_127620427_127617360_127614292_127611223_127608151_127605078_127602004_127598928_127595851_127592772_127589691_127586609_127583526_127580441_127577354_127574266_127571176_127568085_127564992_127561898_127558802_127555705_127552606_127549506_127546404_127543300_127540195_127537089_127533981_127530871_127527760_127524648_127521534_127518418_127515301_127512182_127509062_127505940_127502817_127499693_127496566_127493439_127490309_127487179_127484046_127480912_127477777_127474640_127471502_127468362_127465221_127462078_127458934_127455788_127452640_127449491_127446341_127443189_127440036_127436881_127433724_127430566_127427407_127424246_127421084_127417920_127414754_127411587_127408419_127405249_127402078_127398905_127395730_127392554_127389377_127386198_127383018_127379836_127376652_127373467_127370281_127367093_127363904_127360713_127357520_127354327_127351131_127347934_127344736_127341536_127338335_127335132_127331928_127328722_127325515_127322306_127319096_127315884_127312671_127309457_127306241_127303023_127299804_127296583_127293361_127290138_127286913_127283686_127280458_127277229_127273998_127270766_127267532_127264296_127261060_127257821_127254582_127251340_127248098_127244853_127241608_127238361_127235112_127231862_127228611_127225358_127222103_127218847_127215590_127212331_127209071_127205809_127202546_127199281_127196015_127192747_127189478_127186208_127182936_127179662_127176387_127173111_127169833_127166554_127163273_127159991_127156707_127153422_127150136,
  127146848_127143558_127140268_127136975_127133681_127130386_127127089_127123791_127120492_127117191_127113888_127110584_127107279_127103972_127100664_127097354_127094043_127090730_127087416_127084101_127080784_127077465_127074146_127070824_127067502_127064178_127060852_127057525_127054197_127050867_127047536_127044203_127040869_127037533_127034196_127030858_127027518_127024176_127020834_127017489_127014144_127010797_127007448_127004098_127000747_126997394_126994040_126990685_126987328_126983969_126980609_126977248_126973885_126970521_126967156_126963789_126960420_126957050_126953679_126950307_126946933_126943557_126940180_126936802_126933422_126930041_126926658_126923275_126919889_126916502_126913114_126909725_126906334_126902941_126899547_126896152_126892755_126889357_126885958_126882557_126879155_126875751_126872346_126868940_126865532_126862122_126858712_126855300_126851886_126848471_126845055_126841637_126838218_126834798_126831376_126827953_126824528_126821102_126817675_126814246_126810816_126807384_126803951_126800517_126797081_126793644_126790205_126786765_126783324_126779881_126776437_126772991_126769545_126766096_126762647_126759196_126755743_126752289_126748834_126745378_126741920_126738460_126735000_126731538_126728074_126724609_126721143_126717676_126714207_126710736_126707265_126703791_126700317_126696841_126693364_126689885_126686405_126682924_126679441_126675957_126672472_126668985_126665497_126662008_126658517_126655024_126651531_126648036_126644540_126641042_126637543_126634042_126630541_126627037_126623533_126620027_126616520_126613011_126609501_126605990_126602478_126598964_126595448_126591931_126588413_126584894_126581373_126577851_126574328_126570803_126567277_126563749_126560220_126556690_126553159_126549626_126546092_126542556_126539019_126535481_126531941_126528400_126524858_126521314_126517769_126514223_126510675_126507126_126503576_126500024_126496471_126492917_126489361_126485804_126482246_126478686_126475125_126471563_126467999_126464434_126460868_126457300_126453731_126450161_126446589_126443016_126439442_126435866_126432289_126428711_126425132_126421551_126417968_126414385_126410800_126407214_126403626_126400037_126396447_126392856_126389263_126385669_126382073_126378476_126374878_126371279_126367678_126364076_126360473_126356868_126353262_126349655_126346047_126342437_126338825_126335213_126331599_126327984_126324368_126320750_126317131_126313511_126309889_126306266_126302642_126299016_126295389_126291761_126288132_126284501_126280869_126277236_126273601_126269965_126266328_126262689,
  126259049_126255408_126251766_126248122_126244477_126240831_126237183_126233535_126229884_126226233_126222580_126218926_126215271_126211614_126207956_126204297_126200637_126196975_126193312_126189648_126185982_126182315_126178647_126174978_126171307_126167635_126163962_126160287_126156611_126152934_126149256_126145576_126141895_126138213_126134530_126130845_126127159_126123472_126119783_126116093_126112402_126108710_126105016_126101321_126097625_126093928_126090229_126086529_126082828_126079125_126075422_126071717_126068010_126064303_126060594_126056884_126053173_126049460_126045746_126042031_126038315_126034597_126030878_126027158_126023437_126019714_126015991_126012265_126008539_126004811_126001083_125997352_125993621_125989888_125986155_125982420_125978683_125974946_125971207_125967467_125963725_125959983_125956239_125952494_125948748_125945000_125941251_125937501_125933750_125929998_125926244_125922489_125918733_125914975_125911217_125907457_125903696_125899933_125896170_125892405_125888639_125884871_125881103_125877333_125873562_125869790_125866017_125862242_125858466_125854689_125850911_125847131_125843350_125839568_125835785_125832001_125828215_125824428_125820640_125816851_125813060_125809268_125805475_125801681_125797886_125794089_125790291_125786492_125782692_125778891_125775088_125771284_125767479_125763673_125759865_125756057_125752247_125748436_125744623_125740810_125736995_125733179_125729362_125725544_125721724_125717903_125714081_125710258_125706434_125702608_125698782_125694954_125691124_125687294_125683463_125679630_125675796_125671961_125668125_125664287_125660448_125656609_125652767_125648925_125645082_125641237_125637391_125633544_125629696_125625847_125621996_125618144_125614292_125610437_125606582_125602726_125598868_125595009_125591149_125587288_125583426_125579562_125575697_125571831_125567964_125564096_125560227_125556356_125552484_125548611_125544737_125540862_125536986_125533108_125529229_125525349_125521468_125517586_125513702_125509818_125505932_125502045_125498157_125494268_125490377_125486486_125482593_125478699_125474804_125470908_125467010_125463112_125459212_125455311_125451409_125447506_125443602_125439696_125435790_125431882_125427973_125424063_125420152_125416239_125412326_125408411_125404495_125400578_125396660_125392741_125388820_125384899_125380976_125377052_125373127_125369201_125365274_125361345_125357416_125353485_125349553_125345620_125341686_125337751_125333815_125329877_125325939_125321999_125318058_125314116_125310173_125306228_125302283_125298336_125294389_125290440,
  125286490_125282539_125278587_125274633_125270679_125266723_125262767_125258809_125254850_125250890_125246929_125242967_125239003_125235039_125231073_125227106_125223138_125219169_125215199_125211228_125207256_125203282_125199308_125195332_125191355_125187377_125183398_125179418_125175437_125171454_125167471_125163486_125159501_125155514_125151526_125147537_125143547_125139556_125135564_125131570_125127576_125123580_125119584_125115586_125111587_125107587_125103586_125099584_125095580_125091576_125087571_125083564_125079556_125075548_125071538_125067527_125063515_125059502_125055488_125051473_125047456_125043439_125039420_125035401_125031380_125027358_125023335_125019311_125015286_125011260_125007233_125003205_124999175_124995145_124991114_124987081_124983047_124979013_124974977_124970940_124966902_124962863_124958823_124954782_124950739_124946696_124942652_124938606_124934560_124930512_124926464_124922414_124918363_124914311_124910258_124906204_124902149_124898093_124894036_124889978_124885919_124881858_124877797_124873734_124869671_124865606_124861541_124857474_124853406_124849338_124845268_124841197_124837125_124833052_124828978_124824903_124820827_124816749_124812671_124808592_124804512_124800430_124796348_124792264_124788180_124784094_124780008_124775920_124771831_124767742_124763651_124759559_124755466_124751372_124747277_124743181_124739084_124734986_124730887_124726787_124722686_124718584_124714481_124710377_124706271_124702165_124698058_124693949_124689840_124685730_124681618_124677506_124673392_124669278_124665162_124661046_124656928_124652810_124648690_124644570_124640448_124636325_124632202_124628077_124623951_124619824_124615697_124611568_124607438_124603307_124599176_124595043_124590909_124586774_124582638_124578502_124574364_124570225_124566085_124561944_124557802_124553659_124549515_124545371_124541225_124537078_124532930_124528781_124524631_124520480_124516328_124512175_124508022_124503867_124499711_124495554_124491396_124487237_124483077_124478916_124474755_124470592_124466428_124462263_124458097_124453931_124449763_124445594_124441424_124437254_124433082_124428909_124424735_124420561_124416385_124412208_124408031_124403852_124399673_124395492_124391310_124387128_124382944_124378760_124374575_124370388_124366201_124362012_124357823_124353633_124349441_124345249_124341056_124336862_124332667_124328470_124324273_124320075_124315876_124311676_124307475_124303273_124299071_124294867_124290662_124286456_124282249_124278042_124273833_124269623_124265413_124261201_124256989_124252775_124248561_124244346,
  124240129_124235912_124231694_124227475_124223255_124219034_124214812_124210589_124206365_124202140_124197914_124193687_124189460_124185231_124181001_124176771_124172539_124168307_124164074_124159839_124155604_124151368_124147131_124142893_124138654_124134414_124130173_124125931_124121689_124117445_124113200_124108955_124104708_124100461_124096213_124091963_124087713_124083462_124079210_124074957_124070703_124066448_124062193_124057936_124053679_124049420_124045161_124040900_124036639_124032377_124028114_124023850_124019585_124015319_124011052_124006784_124002516_123998246_123993976_123989705_123985432_123981159_123976885_123972610_123968334_123964057_123959780_123955501_123951221_123946941_123942660_123938377_123934094_123929810_123925525_123921239_123916953_123912665_123908376_123904087_123899797_123895505_123891213_123886920_123882626_123878331_123874036_123869739_123865441_123861143_123856844_123852543_123848242_123843940_123839638_123835334_123831029_123826724_123822417_123818110_123813802_123809493_123805183_123800872_123796560_123792247_123787934_123783620_123779304_123774988_123770671_123766353_123762035_123757715_123753395_123749073_123744751_123740428_123736104_123731779_123727453_123723127_123718799_123714471_123710142_123705811_123701480_123697149_123692816_123688482_123684148_123679813_123675477_123671140_123666802_123662463_123658123_123653783_123649442_123645100_123640757_123636413_123632068_123627722_123623376_123619029_123614680_123610331_123605982_123601631_123597279_123592927_123588574_123584220_123579865_123575509_123571152_123566795_123562436_123558077_123553717_123549356_123544995_123540632_123536269_123531905_123527539_123523174_123518807_123514439_123510071_123505702_123501331_123496961_123492589_123488216_123483843_123479469_123475093_123470718_123466341_123461963_123457585_123453206_123448826_123444445_123440063_123435680_123431297_123426913_123422528_123418142_123413755_123409368_123404980_123400591_123396201_123391810_123387418_123383026_123378633_123374239_123369844_123365448_123361052_123356655_123352257_123347858_123343458_123339058_123334656_123330254_123325851_123321447_123317043_123312638_123308231_123303825_123299417_123295008_123290599_123286189_123281778_123277366_123272953_123268540_123264126_123259711_123255295_123250879_123246461_123242043_123237624_123233204_123228784_123224363_123219941_123215518_123211094_123206670_123202244_123197818_123193391_123188964_123184535_123180106_123175676_123171245_123166814_123162382_123157948_123153515_123149080_123144645_123140208_123135771,
  123131334_123126895_123122456_123118016_123113575_123109133_123104691_123100247_123095803_123091359_123086913_123082467_123078020_123073572_123069123_123064674_123060224_123055773_123051321_123046869_123042416_123037962_123033507_123029052_123024596_123020139_123015681_123011222_123006763_123002303_122997842_122993381_122988918_122984455_122979992_122975527_122971062_122966596_122962129_122957661_122953193_122948724_122944254_122939784_122935312_122930840_122926368_122921894_122917420_122912945_122908469_122903993_122899515_122895037_122890559_122886079_122881599_122877118_122872636_122868154_122863671_122859187_122854702_122850217_122845731_122841244_122836756_122832268_122827779_122823289_122818799_122814308_122809816_122805323_122800830_122796336_122791841_122787345_122782849_122778352_122773854_122769356_122764857_122760357_122755856_122751355_122746853_122742350_122737847_122733342_122728838_122724332_122719826_122715319_122710811_122706302_122701793_122697283_122692773_122688261_122683749_122679237_122674723_122670209_122665694_122661179_122656662_122652145_122647628_122643109_122638590_122634071_122629550_122625029_122620507_122615984_122611461_122606937_122602413_122597887_122593361_122588834_122584307_122579779_122575250_122570721_122566190_122561659_122557128_122552596_122548063_122543529_122538995_122534460_122529924_122525388_122520851_122516313_122511774_122507235_122502696_122498155_122493614_122489072_122484530_122479986_122475442_122470898_122466353_122461807_122457260_122452713_122448165_122443617_122439067_122434517_122429967_122425416_122420864_122416311_122411758_122407204_122402649_122398094_122393538_122388981_122384424_122379866_122375308_122370748_122366189_122361628_122357067_122352505_122347942_122343379_122338815_122334251_122329686_122325120_122320553_122315986_122311418_122306850_122302281_122297711_122293141_122288570_122283998_122279426_122274853_122270279_122265705_122261130_122256555_122251978_122247402_122242824_122238246_122233667_122229088_122224508_122219927_122215346_122210764_122206181_122201598_122197014_122192430_122187845_122183259_122178672_122174085_122169498_122164909_122160321_122155731_122151141_122146550_122141959_122137367_122132774_122128181_122123587_122118992_122114397_122109801_122105205_122100608_122096010_122091412_122086813_122082213_122077613_122073012_122068411_122063809_122059207_122054603_122050000_122045395_122040790_122036184_122031578_122026971_122022364_122017756_122013147_122008538_122003928_121999317_121994706_121990094_121985482_121980869_121976256,
  121971641_121967027_121962411_121957795_121953179_121948562_121943944_121939326_121934707_121930087_121925467_121920846_121916225_121911603_121906981_121902358_121897734_121893110_121888485_121883859_121879233_121874607_121869979_121865352_121860723_121856094_121851465_121846835_121842204_121837573_121832941_121828308_121823675_121819042_121814407_121809773_121805137_121800501_121795865_121791228_121786590_121781952_121777313_121772674_121768034_121763393_121758752_121754111_121749468_121744825_121740182_121735538_121730894_121726249_121721603_121716957_121712310_121707663_121703015_121698366_121693717_121689068_121684418_121679767_121675116_121670464_121665812_121661159_121656505_121651851_121647197_121642541_121637886_121633230_121628573_121623915_121619258_121614599_121609940_121605281_121600620_121595960_121591299_121586637_121581975_121577312_121572648_121567985_121563320_121558655_121553990_121549324_121544657_121539990_121535322_121530654_121525985_121521316_121516646_121511976_121507305_121502633_121497961_121493289_121488616_121483942_121479268_121474594_121469918_121465243_121460567_121455890_121451213_121446535_121441856_121437178_121432498_121427818_121423138_121418457_121413776_121409094_121404411_121399728_121395045_121390361_121385676_121380991_121376305_121371619_121366933_121362246_121357558_121352870_121348181_121343492_121338802_121334112_121329421_121324730_121320039_121315346_121310654_121305960_121301267_121296572_121291878_121287182_121282487_121277790_121273094_121268396_121263699_121259000_121254302_121249602_121244903_121240202_121235502_121230800_121226099_121221396_121216694_121211991_121207287_121202583_121197878_121193173_121188467_121183761_121179054_121174347_121169640_121164932_121160223_121155514_121150805_121146094_121141384_121136673_121131962_121127250_121122537_121117824_121113111_121108397_121103683_121098968_121094253_121089537_121084821_121080104_121075387_121070669_121065951_121061232_121056513_121051794_121047074_121042353_121037632_121032911_121028189_121023467_121018744_121014021_121009297_121004573_120999848_120995123_120990397_120985671_120980945_120976218_120971490_120966763_120962034_120957305_120952576_120947847_120943116_120938386_120933655_120928923_120924191_120919459_120914726_120909993_120905259_120900525_120895790_120891055_120886319_120881583_120876847_120872110_120867373_120862635_120857897_120853158_120848419_120843679_120838940_120834199_120829458_120824717_120819975_120815233_120810490_120805747_120801004_120796260_120791516_120786771_120782026_120777280,
  120772534_120767788_120763041_120758293_120753546_120748797_120744049_120739300_120734550_120729800_120725050_120720299_120715548_120710796_120706044_120701292_120696539_120691786_120687032_120682278_120677523_120672768_120668013_120663257_120658501_120653744_120648987_120644230_120639472_120634714_120629955_120625196_120620437_120615677_120610916_120606156_120601395_120596633_120591871_120587109_120582346_120577583_120572819_120568055_120563291_120558526_120553761_120548995_120544230_120539463_120534696_120529929_120525162_120520394_120515625_120510857_120506088_120501318_120496548_120491778_120487007_120482236_120477465_120472693_120467920_120463148_120458375_120453601_120448828_120444053_120439279_120434504_120429728_120424953_120420177_120415400_120410623_120405846_120401068_120396290_120391512_120386733_120381954_120377174_120372395_120367614_120362834_120358053_120353271_120348489_120343707_120338925_120334142_120329359_120324575_120319791_120315007_120310222_120305437_120300651_120295866_120291079_120286293_120281506_120276719_120271931_120267143_120262355_120257566_120252777_120247987_120243198_120238407_120233617_120228826_120224035_120219243_120214451_120209659_120204866_120200073_120195280_120190486_120185692_120180898_120176103_120171308_120166513_120161717_120156921_120152124_120147327_120142530_120137733_120132935_120128136_120123338_120118539_120113740_120108940_120104140_120099340_120094539_120089739_120084937_120080136_120075334_120070531_120065729_120060926_120056123_120051319_120046515_120041711_120036906_120032101_120027296_120022490_120017684_120012878_120008072_120003265_119998457_119993650_119988842_119984034_119979225_119974416_119969607_119964798_119959988_119955178_119950367_119945556_119940745_119935934_119931122_119926310_119921498_119916685_119911872_119907059_119902245_119897431_119892617_119887803_119882988_119878172_119873357_119868541_119863725_119858909_119854092_119849275_119844458_119839640_119834822_119830004_119825185_119820366_119815547_119810728_119805908_119801088_119796268_119791447_119786626_119781805_119776983_119772161_119767339_119762517_119757694_119752871_119748048_119743224_119738400_119733576_119728752_119723927_119719102_119714277_119709451_119704625_119699799_119694972_119690146_119685318_119680491_119675663_119670836_119666007_119661179_119656350_119651521_119646692_119641862_119637032_119632202_119627372_119622541_119617710_119612879_119608047_119603215_119598383_119593551_119588718_119583886_119579052_119574219_119569385_119564551_119559717_119554882_119550048,
  119545213_119540377_119535542_119530706_119525870_119521033_119516197_119511360_119506523_119501685_119496848_119492010_119487171_119482333_119477494_119472655_119467816_119462977_119458137_119453297_119448457_119443616_119438775_119433934_119429093_119424251_119419410_119414568_119409725_119404883_119400040_119395197_119390354_119385510_119380667_119375823_119370978_119366134_119361289_119356444_119351599_119346753_119341908_119337062_119332216_119327369_119322523_119317676_119312829_119307981_119303134_119298286_119293438_119288589_119283741_119278892_119274043_119269194_119264344_119259495_119254645_119249795_119244944_119240094_119235243_119230392_119225540_119220689_119215837_119210985_119206133_119201281_119196428_119191575_119186722_119181869_119177015_119172161_119167307_119162453_119157599_119152744_119147889_119143034_119138179_119133324_119128468_119123612_119118756_119113900_119109043_119104186_119099329_119094472_119089615_119084757_119079899_119075041_119070183_119065325_119060466_119055607_119050748_119045889_119041030_119036170_119031310_119026450_119021590_119016729_119011869_119007008_119002147_118997286_118992424_118987563_118982701_118977839_118972977_118968114_118963252_118958389_118953526_118948663_118943799_118938936_118934072_118929208_118924344_118919480_118914615_118909750_118904885_118900020_118895155_118890290_118885424_118880558_118875692_118870826_118865960_118861093_118856227_118851360_118846493_118841625_118836758_118831890_118827023_118822155_118817286_118812418_118807550_118802681_118797812_118792943_118788074_118783205_118778335_118773465_118768596_118763726_118758855_118753985_118749115_118744244_118739373_118734502_118729631_118724759_118719888_118715016_118710144_118705272_118700400_118695528_118690655_118685783_118680910_118676037_118671164_118666291_118661417_118656544_118651670_118646796_118641922_118637048_118632173_118627299_118622424_118617549_118612674_118607799_118602924_118598049_118593173_118588297_118583421_118578545_118573669_118568793_118563917_118559040_118554163_118549286_118544409_118539532_118534655_118529778_118524900_118520022_118515144_118510266_118505388_118500510_118495632_118490753_118485874_118480996_118476117_118471238_118466358_118461479_118456600_118451720_118446840_118441960_118437080_118432200_118427320_118422440_118417559_118412678_118407798_118402917_118398036_118393155_118388273_118383392_118378510_118373629_118368747_118363865_118358983_118354101_118349219_118344336_118339454_118334571_118329689_118324806_118319923_118315040_118310157_118305273,
  118300390_118295507_118290623_118285739_118280855_118275971_118271087_118266203_118261319_118256435_118251550_118246665_118241781_118236896_118232011_118227126_118222241_118217356_118212470_118207585_118202699_118197814_118192928_118188042_118183156_118178270_118173384_118168498_118163611_118158725_118153838_118148952_118144065_118139178_118134291_118129404_118124517_118119630_118114743_118109855_118104968_118100080_118095193_118090305_118085417_118080529_118075641_118070753_118065865_118060977_118056089_118051200_118046312_118041423_118036534_118031646_118026757_118021868_118016979_118012090_118007201_118002311_117997422_117992533_117987643_117982754_117977864_117972974_117968085_117963195_117958305_117953415_117948525_117943635_117938745_117933854_117928964_117924074_117919183_117914292_117909402_117904511_117899620_117894730_117889839_117884948_117880057_117875166_117870275_117865383_117860492_117855601_117850709_117845818_117840926_117836035_117831143_117826251_117821360_117816468_117811576_117806684_117801792_117796900_117792008_117787116_117782224_117777331_117772439_117767547_117762654_117757762_117752869_117747977_117743084_117738192_117733299_117728406_117723513_117718621_117713728_117708835_117703942_117699049_117694156_117689263_117684370_117679476_117674583_117669690_117664797_117659903_117655010_117650116_117645223_117640329_117635436_117630542_117625649_117620755_117615861_117610968_117606074_117601180_117596286_117591392_117586498_117581605_117576711_117571817_117566923_117562029_117557135_117552240_117547346_117542452_117537558_117532664_117527770_117522875_117517981_117513087_117508193_117503298_117498404_117493509_117488615_117483721_117478826_117473932_117469037_117464143_117459248_117454354_117449459_117444565_117439670_117434775_117429881_117424986_117420092_117415197_117410302_117405408_117400513_117395618_117390724_117385829_117380934_117376039_117371145_117366250_117361355_117356460_117351566_117346671_117341776_117336881_117331987_117327092_117322197_117317302_117312407_117307513_117302618_117297723_117292828_117287933_117283039_117278144_117273249_117268354_117263460_117258565_117253670_117248775_117243880_117238986_117234091_117229196_117224302_117219407_117214512_117209617_117204723_117199828_117194933_117190039_117185144_117180249_117175355_117170460_117165566_117160671_117155777_117150882_117145988_117141093_117136199_117131304_117126410_117121515_117116621_117111726_117106832_117101938_117097043_117092149_117087255_117082360_117077466_117072572_117067678_117062784_117057890_117052995,
  117048101_117043207_117038313_117033419_117028525_117023631_117018738_117013844_117008950_117004056_116999162_116994268_116989375_116984481_116979587_116974694_116969800_116964907_116960013_116955120_116950226_116945333_116940440_116935546_116930653_116925760_116920867_116915973_116911080_116906187_116901294_116896401_116891508_116886615_116881722_116876830_116871937_116867044_116862152_116857259_116852366_116847474_116842581_116837689_116832797_116827904_116823012_116818120_116813228_116808335_116803443_116798551_116793659_116788767_116783876_116778984_116774092_116769200_116764309_116759417_116754526_116749634_116744743_116739851_116734960_116730069_116725178_116720287_116715396_116710505_116705614_116700723_116695832_116690941_116686051_116681160_116676270_116671379_116666489_116661599_116656708_116651818_116646928_116642038_116637148_116632258_116627368_116622478_116617589_116612699_116607810_116602920_116598031_116593141_116588252_116583363_116578474_116573585_116568696_116563807_116558918_116554030_116549141_116544252_116539364_116534475_116529587_116524699_116519811_116514923_116510035_116505147_116500259_116495371_116490484_116485596_116480709_116475821_116470934_116466047_116461160_116456273_116451386_116446499_116441612_116436725_116431839_116426952_116422066_116417179_116412293_116407407_116402521_116397635_116392749_116387864_116382978_116378092_116373207_116368322_116363436_116358551_116353666_116348781_116343896_116339011_116334127_116329242_116324358_116319473_116314589_116309705_116304821_116299937_116295053_116290169_116285286_116280402_116275519_116270635_116265752_116260869_116255986_116251103_116246220_116241338_116236455_116231573_116226690_116221808_116216926_116212044_116207162_116202280_116197399_116192517_116187636_116182754_116177873_116172992_116168111_116163230_116158349_116153469_116148588_116143708_116138828_116133948_116129068_116124188_116119308_116114428_116109549_116104669_116099790_116094911_116090032_116085153_116080274_116075395_116070517_116065639_116060760_116055882_116051004_116046126_116041248_116036371_116031493_116026616_116021739_116016862_116011985_116007108_116002231_115997354_115992478_115987602_115982725_115977849_115972974_115968098_115963222_115958347_115953471_115948596_115943721_115938846_115933971_115929097_115924222_115919348_115914473_115909599_115904725_115899851_115894978_115890104_115885231_115880358_115875485_115870612_115865739_115860866_115855994_115851121_115846249_115841377_115836505_115831633_115826762_115821890_115817019_115812148_115807277_115802406,
  115797535_115792665_115787794_115782924_115778054_115773184_115768314_115763444_115758575_115753706_115748836_115743967_115739099_115734230_115729361_115724493_115719625_115714757_115709889_115705021_115700154_115695286_115690419_115685552_115680685_115675818_115670952_115666085_115661219_115656353_115651487_115646621_115641755_115636890_115632025_115627160_115622295_115617430_115612565_115607701_115602837_115597973_115593109_115588245_115583381_115578518_115573655_115568792_115563929_115559066_115554204_115549341_115544479_115539617_115534755_115529894_115525032_115520171_115515310_115510449_115505588_115500728_115495867_115491007_115486147_115481287_115476428_115471568_115466709_115461850_115456991_115452132_115447273_115442415_115437557_115432699_115427841_115422983_115418126_115413269_115408412_115403555_115398698_115393842_115388985_115384129_115379273_115374417_115369562_115364707_115359851_115354996_115350142_115345287_115340433_115335579_115330725_115325871_115321017_115316164_115311310_115306457_115301605_115296752_115291900_115287047_115282195_115277344_115272492_115267640_115262789_115257938_115253087_115248237_115243386_115238536_115233686_115228836_115223987_115219137_115214288_115209439_115204590_115199742_115194894_115190045_115185197_115180350_115175502_115170655_115165808_115160961_115156114_115151268_115146421_115141575_115136729_115131884_115127038_115122193_115117348_115112503_115107659_115102815_115097970_115093127_115088283_115083439_115078596_115073753_115068910_115064068_115059225_115054383_115049541_115044699_115039858_115035017_115030175_115025335_115020494_115015654_115010813_115005973_115001134_114996294_114991455_114986616_114981777_114976938_114972100_114967262_114962424_114957586_114952749_114947912_114943075_114938238_114933401_114928565_114923729_114918893_114914057_114909222_114904387_114899552_114894717_114889883_114885048_114880214_114875381_114870547_114865714_114860881_114856048_114851215_114846383_114841551_114836719_114831887_114827056_114822225_114817394_114812563_114807733_114802902_114798073_114793243_114788413_114783584_114778755_114773926_114769098_114764270_114759442_114754614_114749786_114744959_114740132_114735305_114730479_114725652_114720826_114716000_114711175_114706350_114701525_114696700_114691875_114687051_114682227_114677403_114672579_114667756_114662933_114658110_114653288_114648465_114643643_114638822_114634000_114629179_114624358_114619537_114614717_114609896_114605076_114600257_114595437_114590618_114585799_114580980_114576162_114571344_114566526_114561708,
  114556891_114552073_114547257_114542440_114537624_114532807_114527992_114523176_114518361_114513546_114508731_114503916_114499102_114494288_114489474_114484661_114479848_114475035_114470222_114465410_114460598_114455786_114450974_114446163_114441352_114436541_114431731_114426921_114422111_114417301_114412492_114407682_114402874_114398065_114393257_114388449_114383641_114378833_114374026_114369219_114364413_114359606_114354800_114349994_114345189_114340384_114335579_114330774_114325969_114321165_114316361_114311558_114306754_114301951_114297149_114292346_114287544_114282742_114277940_114273139_114268338_114263537_114258737_114253937_114249137_114244337_114239538_114234739_114229940_114225141_114220343_114215545_114210748_114205950_114201153_114196356_114191560_114186764_114181968_114177172_114172377_114167582_114162787_114157993_114153199_114148405_114143611_114138818_114134025_114129232_114124440_114119648_114114856_114110065_114105274_114100483_114095692_114090902_114086112_114081322_114076533_114071743_114066955_114062166_114057378_114052590_114047802_114043015_114038228_114033441_114028655_114023869_114019083_114014298_114009512_114004727_113999943_113995159_113990375_113985591_113980808_113976024_113971242_113966459_113961677_113956895_113952114_113947333_113942552_113937771_113932991_113928211_113923431_113918652_113913873_113909094_113904315_113899537_113894759_113889982_113885205_113880428_113875651_113870875_113866099_113861324_113856548_113851773_113846999_113842224_113837450_113832676_113827903_113823130_113818357_113813585_113808813_113804041_113799269_113794498_113789727_113784957_113780186_113775416_113770647_113765878_113761109_113756340_113751572_113746804_113742036_113737269_113732502_113727735_113722969_113718203_113713437_113708672_113703907_113699142_113694377_113689613_113684850_113680086_113675323_113670560_113665798_113661036_113656274_113651512_113646751_113641990_113637230_113632470_113627710_113622951_113618191_113613433_113608674_113603916_113599158_113594401_113589644_113584887_113580130_113575374_113570618_113565863_113561108_113556353_113551598_113546844_113542090_113537337_113532584_113527831_113523079_113518327_113513575_113508823_113504072_113499322_113494571_113489821_113485071_113480322_113475573_113470824_113466076_113461328_113456580_113451833_113447086_113442339_113437593_113432847_113428101_113423356_113418611_113413867_113409122_113404378_113399635_113394892_113390149_113385406_113380664_113375922_113371181_113366440_113361699_113356959_113352219_113347479_113342740_113338001,
  113333262_113328524_113323786_113319048_113314311_113309574_113304837_113300101_113295365_113290630_113285895_113281160_113276426_113271691_113266958_113262224_113257491_113252759_113248026_113243295_113238563_113233832_113229101_113224370_113219640_113214910_113210181_113205452_113200723_113195995_113191267_113186539_113181812_113177085_113172359_113167632_113162907_113158181_113153456_113148731_113144007_113139283_113134559_113129836_113125113_113120391_113115669_113110947_113106225_113101504_113096784_113092063_113087343_113082624_113077904_113073185_113068467_113063749_113059031_113054314_113049597_113044880_113040164_113035448_113030732_113026017_113021302_113016588_113011874_113007160_113002447_112997734_112993021_112988309_112983597_112978886_112974175_112969464_112964754_112960044_112955334_112950625_112945916_112941208_112936499_112931792_112927084_112922378_112917671_112912965_112908259_112903554_112898848_112894144_112889439_112884736_112880032_112875329_112870626_112865924_112861222_112856520_112851819_112847118_112842417_112837717_112833018_112828318_112823619_112818921_112814223_112809525_112804827_112800130_112795434_112790737_112786042_112781346_112776651_112771956_112767262_112762568_112757874_112753181_112748488_112743796_112739104_112734412_112729721_112725030_112720340_112715650_112710960_112706271_112701582_112696893_112692205_112687518_112682830_112678143_112673457_112668771_112664085_112659400_112654715_112650030_112645346_112640662_112635979_112631296_112626613_112621931_112617249_112612568_112607887_112603206_112598526_112593846_112589166_112584487_112579809_112575131_112570453_112565775_112561098_112556422_112551745_112547069_112542394_112537719_112533044_112528370_112523696_112519023_112514350_112509677_112505005_112500333_112495662_112490991_112486320_112481650_112476980_112472310_112467641_112462973_112458305_112453637_112448969_112444302_112439636_112434970_112430304_112425639_112420974_112416309_112411645_112406981_112402318_112397655_112392992_112388330_112383669_112379007_112374346_112369686_112365026_112360366_112355707_112351048_112346390_112341732_112337074_112332417_112327760_112323104_112318448_112313792_112309137_112304482_112299828_112295174_112290521_112285868_112281215_112276563_112271911_112267260_112262609_112257958_112253308_112248658_112244009_112239360_112234712_112230063_112225416_112220769_112216122_112211475_112206829_112202184_112197539_112192894_112188250_112183606_112178962_112174319_112169677_112165034_112160393_112155751_112151110_112146470_112141830_112137190,
  112132551_112127912_112123274_112118636_112113998_112109361_112104724_112100088_112095452_112090816_112086181_112081547_112076913_112072279_112067646_112063013_112058380_112053748_112049117_112044485_112039855_112035224_112030594_112025965_112021336_112016707_112012079_112007451_112002824_111998197_111993570_111988944_111984319_111979694_111975069_111970444_111965821_111961197_111956574_111951951_111947329_111942708_111938086_111933465_111928845_111924225_111919605_111914986_111910367_111905749_111901131_111896514_111891897_111887280_111882664_111878048_111873433_111868818_111864204_111859590_111854977_111850364_111845751_111841139_111836527_111831916_111827305_111822694_111818084_111813475_111808866_111804257_111799649_111795041_111790433_111785826_111781220_111776614_111772008_111767403_111762798_111758194_111753590_111748987_111744384_111739781_111735179_111730577_111725976_111721375_111716775_111712175_111707576_111702977_111698378_111693780_111689182_111684585_111679988_111675392_111670796_111666201_111661606_111657011_111652417_111647823_111643230_111638637_111634045_111629453_111624862_111620271_111615680_111611090_111606501_111601911_111597323_111592734_111588146_111583559_111578972_111574386_111569800_111565214_111560629_111556044_111551460_111546876_111542293_111537710_111533127_111528545_111523964_111519383_111514802_111510222_111505642_111501063_111496484_111491905_111487327_111482750_111478173_111473596_111469020_111464445_111459869_111455295_111450720_111446146_111441573_111437000_111432428_111427855_111423284_111418713_111414142_111409572_111405002_111400433_111395864_111391296_111386728_111382160_111377593_111373027_111368460_111363895_111359330_111354765_111350201_111345637_111341073_111336511_111331948_111327386_111322825_111318264_111313703_111309143_111304583_111300024_111295465_111290907_111286349_111281792_111277235_111272678_111268122_111263567_111259012_111254457_111249903_111245349_111240796_111236243_111231691_111227139_111222588_111218037_111213487_111208937_111204387_111199838_111195289_111190741_111186194_111181647_111177100_111172554_111168008_111163462_111158918_111154373_111149829_111145286_111140743_111136200_111131658_111127117_111122576_111118035_111113495_111108955_111104416_111099877_111095339_111090801_111086264_111081727_111077190_111072654_111068119_111063584_111059049_111054515_111049982_111045448_111040916_111036383_111031852_111027321_111022790_111018259_111013730_111009200_111004671_111000143_110995615_110991087_110986560_110982034_110977508_110972982_110968457_110963932,
  110959408_110954885_110950361_110945839_110941316_110936795_110932273_110927752_110923232_110918712_110914193_110909674_110905155_110900637_110896120_110891603_110887086_110882570_110878054_110873539_110869025_110864510_110859997_110855483_110850971_110846458_110841947_110837435_110832924_110828414_110823904_110819395_110814886_110810377_110805869_110801362_110796855_110792348_110787842_110783337_110778832_110774327_110769823_110765319_110760816_110756313_110751811_110747309_110742808_110738307_110733807_110729307_110724808_110720309_110715811_110711313_110706815_110702319_110697822_110693326_110688831_110684336_110679841_110675347_110670854_110666361_110661868_110657376_110652884_110648393_110643903_110639412_110634923_110630434_110625945_110621457_110616969_110612482_110607995_110603509_110599023_110594538_110590053_110585568_110581085_110576601_110572118_110567636_110563154_110558673_110554192_110549711_110545231_110540752_110536273_110531795_110527317_110522839_110518362_110513885_110509409_110504934_110500459_110495984_110491510_110487037_110482563_110478091_110473619_110469147_110464676_110460205_110455735_110451265_110446796_110442327_110437859_110433392_110428924_110424458_110419991_110415526_110411060_110406596_110402131_110397667_110393204_110388741_110384279_110379817_110375356_110370895_110366435_110361975_110357516_110353057_110348598_110344140_110339683_110335226_110330770_110326314_110321858_110317403_110312949_110308495_110304042_110299589_110295136_110290684_110286233_110281782_110277331_110272881_110268432_110263983_110259535_110255087_110250639_110246192_110241746_110237300_110232854_110228409_110223964_110219520_110215077_110210634_110206191_110201749_110197308_110192867_110188426_110183986_110179547_110175108_110170669_110166231_110161793_110157356_110152920_110148484_110144048_110139613_110135178_110130744_110126311_110121878_110117445_110113013_110108581_110104150_110099720_110095290_110090860_110086431_110082002_110077574_110073147_110068720_110064293_110059867_110055441_110051016_110046592_110042168_110037744_110033321_110028899_110024476_110020055_110015634_110011213_110006793_110002374_109997955_109993536_109989118_109984700_109980283_109975867_109971451_109967035_109962620_109958206_109953791_109949378_109944965_109940552_109936140_109931729_109927318_109922907_109918497_109914088_109909679_109905270_109900862_109896455_109892048_109887641_109883235_109878830_109874425_109870020_109865616_109861213_109856810_109852407_109848005_109843604_109839203_109834803_109830403_109826003_109821604,
  109817206_109812808_109808411_109804014_109799617_109795221_109790826_109786431_109782037_109777643_109773250_109768857_109764464_109760073_109755681_109751290_109746900_109742510_109738121_109733732_109729344_109724956_109720569_109716182_109711796_109707410_109703025_109698640_109694256_109689872_109685489_109681106_109676724_109672342_109667961_109663581_109659200_109654821_109650442_109646063_109641685_109637307_109632930_109628554_109624177_109619802_109615427_109611052_109606678_109602305_109597932_109593559_109589187_109584816_109580445_109576074_109571704_109567335_109562966_109558597_109554229_109549862_109545495_109541129_109536763_109532397_109528032_109523668_109519304_109514941_109510578_109506216_109501854_109497493_109493132_109488772_109484412_109480053_109475694_109471336_109466978_109462621_109458264_109453908_109449552_109445197_109440842_109436488_109432135_109427781_109423429_109419077_109414725_109410374_109406024_109401674_109397324_109392975_109388627_109384279_109379931_109375584_109371238_109366892_109362546_109358201_109353857_109349513_109345170_109340827_109336485_109332143_109327801_109323461_109319120_109314781_109310441_109306103_109301764_109297427_109293089_109288753_109284417_109280081_109275746_109271411_109267077_109262743_109258410_109254078_109249746_109245414_109241083_109236753_109232423_109228093_109223764_109219436_109215108_109210780_109206453_109202127_109197801_109193476_109189151_109184826_109180503_109176179_109171856_109167534_109163212_109158891_109154570_109150250_109145931_109141611_109137293_109132975_109128657_109124340_109120023_109115707_109111391_109107076_109102762_109098448_109094134_109089821_109085509_109081197_109076885_109072574_109068264_109063954_109059645_109055336_109051028_109046720_109042412_109038106_109033799_109029494_109025188_109020884_109016579_109012276_109007972_109003670_108999368_108995066_108990765_108986464_108982164_108977865_108973566_108969267_108964969_108960671_108956374_108952078_108947782_108943487_108939192_108934897_108930603_108926310_108922017_108917725_108913433_108909142_108904851_108900561_108896271_108891982_108887693_108883405_108879117_108874830_108870543_108866257_108861972_108857687_108853402_108849118_108844834_108840551_108836269_108831987_108827705_108823425_108819144_108814864_108810585_108806306_108802028_108797750_108793472_108789196_108784919_108780644_108776368_108772094_108767819_108763546_108759273_108755000_108750728_108746456_108742185_108737914_108733644_108729375_108725106_108720837_108716569_108712302,
  108708035_108703768_108699502_108695237_108690972_108686708_108682444_108678181_108673918_108669656_108665394_108661133_108656872_108652612_108648352_108644093_108639834_108635576_108631318_108627061_108622805_108618549_108614293_108610038_108605783_108601529_108597276_108593023_108588771_108584519_108580267_108576016_108571766_108567516_108563267_108559018_108554770_108550522_108546275_108542028_108537782_108533536_108529291_108525046_108520802_108516558_108512315_108508073_108503831_108499589_108495348_108491108_108486868_108482628_108478389_108474151_108469913_108465675_108461439_108457202_108452966_108448731_108444496_108440262_108436028_108431795_108427562_108423330_108419098_108414867_108410637_108406406_108402177_108397948_108393719_108389491_108385263_108381036_108376810_108372584_108368358_108364134_108359909_108355685_108351462_108347239_108343017_108338795_108334573_108330353_108326132_108321913_108317693_108313475_108309256_108305039_108300821_108296605_108292389_108288173_108283958_108279743_108275529_108271316_108267103_108262890_108258678_108254467_108250256_108246045_108241835_108237626_108233417_108229209_108225001_108220794_108216587_108212380_108208175_108203969_108199765_108195560_108191357_108187154_108182951_108178749_108174547_108170346_108166145_108161945_108157746_108153547_108149348_108145150_108140953_108136756_108132559_108128363_108124168_108119973_108115779_108111585_108107391_108103198_108099006_108094814_108090623_108086432_108082242_108078052_108073863_108069674_108065486_108061299_108057111_108052925_108048739_108044553_108040368_108036183_108031999_108027816_108023633_108019450_108015268_108011087_108006906_108002726_107998546_107994366_107990187_107986009_107981831_107977654_107973477_107969301_107965125_107960950_107956775_107952601_107948427_107944254_107940081_107935909_107931737_107927566_107923396_107919225_107915056_107910887_107906718_107902550_107898383_107894216_107890049_107885883_107881718_107877553_107873388_107869224_107865061_107860898_107856736_107852574_107848413_107844252_107840092_107835932_107831772_107827614_107823455_107819298_107815141_107810984_107806828_107802672_107798517_107794362_107790208_107786054_107781901_107777749_107773597_107769445_107765294_107761144_107756994_107752844_107748695_107744547_107740399_107736251_107732104_107727958_107723812_107719667_107715522_107711377_107707234_107703090_107698947_107694805_107690663_107686522_107682381_107678241_107674101_107669962_107665823_107661685_107657547_107653410_107649274_107645137_107641002_107636867,
  107632732_107628598_107624464_107620331_107616199_107612067_107607935_107603804_107599674_107595544_107591414_107587285_107583157_107579029_107574901_107570774_107566648_107562522_107558397_107554272_107550148_107546024_107541900_107537778_107533655_107529533_107525412_107521291_107517171_107513051_107508932_107504813_107500695_107496577_107492460_107488343_107484227_107480112_107475996_107471882_107467768_107463654_107459541_107455428_107451316_107447205_107443093_107438983_107434873_107430763_107426654_107422546_107418438_107414330_107410223_107406117_107402011_107397905_107393800_107389696_107385592_107381488_107377385_107373283_107369181_107365080_107360979_107356878_107352778_107348679_107344580_107340482_107336384_107332287_107328190_107324093_107319998_107315902_107311807_107307713_107303619_107299526_107295433_107291341_107287249_107283158_107279067_107274977_107270887_107266798_107262709_107258621_107254533_107250446_107246359_107242273_107238188_107234102_107230018_107225934_107221850_107217767_107213684_107209602_107205520_107201439_107197358_107193278_107189199_107185120_107181041_107176963_107172885_107168808_107164732_107160656_107156580_107152505_107148430_107144356_107140283_107136210_107132137_107128065_107123993_107119922_107115852_107111782_107107712_107103643_107099575_107095507_107091439_107087372_107083306_107079240_107075174_107071109_107067045_107062981_107058917_107054854_107050792_107046730_107042668_107038607_107034547_107030487_107026427_107022368_107018310_107014252_107010194_107006137_107002081_106998025_106993969_106989914_106985860_106981806_106977752_106973699_106969647_106965595_106961543_106957492_106953442_106949392_106945342_106941293_106937245_106933197_106929150_106925103_106921056_106917010_106912965_106908920_106904875_106900831_106896788_106892745_106888702_106884660_106880619_106876578_106872537_106868497_106864458_106860419_106856380_106852342_106848305_106844268_106840231_106836195_106832159_106828124_106824090_106820056_106816022_106811989_106807957_106803925_106799893_106795862_106791831_106787801_106783772_106779743_106775714_106771686_106767658_106763631_106759605_106755579_106751553_106747528_106743503_106739479_106735455_106731432_106727410_106723387_106719366_106715345_106711324_106707304_106703284_106699265_106695246_106691228_106687210_106683193_106679176_106675160_106671144_106667129_106663114_106659100_106655086_106651073_106647060_106643048_106639036_106635025_106631014_106627003_106622994_106618984_106614975_106610967_106606959_106602952_106598945_106594938,
  106590932_106586927_106582922_106578917_106574913_106570910_106566907_106562904_106558902_106554901_106550900_106546899_106542899_106538900_106534901_106530902_106526904_106522906_106518909_106514912_106510916_106506921_106502925_106498931_106494937_106490943_106486950_106482957_106478965_106474973_106470981_106466991_106463000_106459010_106455021_106451032_106447044_106443056_106439069_106435082_106431095_106427109_106423124_106419139_106415154_106411170_106407187_106403204_106399221_106395239_106391257_106387276_106383296_106379316_106375336_106371357_106367378_106363400_106359422_106355445_106351468_106347492_106343516_106339541_106335566_106331591_106327617_106323644_106319671_106315699_106311727_106307755_106303784_106299814_106295844_106291874_106287905_106283936_106279968_106276001_106272034_106268067_106264101_106260135_106256170_106252205_106248241_106244277_106240314_106236351_106232388_106228426_106224465_106220504_106216544_106212584_106208624_106204665_106200707_106196748_106192791_106188834_106184877_106180921_106176965_106173010_106169055_106165101_106161147_106157194_106153241_106149289_106145337_106141385_106137434_106133484_106129534_106125584_106121635_106117687_106113739_106109791_106105844_106101897_106097951_106094005_106090060_106086115_106082171_106078227_106074284_106070341_106066398_106062457_106058515_106054574_106050633_106046693_106042754_106038815_106034876_106030938_106027000_106023063_106019126_106015190_106011254_106007319_106003384_105999449_105995515_105991582_105987649_105983716_105979784_105975853_105971921_105967991_105964060_105960131_105956201_105952273_105948344_105944416_105940489_105936562_105932636_105928710_105924784_105920859_105916934_105913010_105909087_105905163_105901241_105897318_105893396_105889475_105885554_105881634_105877714_105873794_105869875_105865957_105862039_105858121_105854204_105850287_105846371_105842455_105838540_105834625_105830710_105826796_105822883_105818970_105815057_105811145_105807234_105803322_105799412_105795502_105791592_105787682_105783774_105779865_105775957_105772050_105768143_105764236_105760330_105756424_105752519_105748614_105744710_105740806_105736903_105733000_105729098_105725196_105721294_105717393_105713492_105709592_105705693_105701793_105697895_105693996_105690098_105686201_105682304_105678407_105674511_105670616_105666721_105662826_105658932_105655038_105651145_105647252_105643359_105639467_105635576_105631685_105627794_105623904_105620014_105616125_105612236_105608348_105604460_105600573_105596686_105592799_105588913_105585028,
  105581142_105577258_105573373_105569490_105565606_105561723_105557841_105553959_105550077_105546196_105542315_105538435_105534555_105530676_105526797_105522919_105519041_105515163_105511286_105507410_105503533_105499658_105495782_105491908_105488033_105484159_105480286_105476413_105472540_105468668_105464796_105460925_105457054_105453184_105449314_105445444_105441575_105437707_105433838_105429971_105426103_105422237_105418370_105414504_105410639_105406774_105402909_105399045_105395181_105391318_105387455_105383593_105379731_105375869_105372008_105368147_105364287_105360428_105356568_105352709_105348851_105344993_105341135_105337278_105333422_105329565_105325710_105321854_105317999_105314145_105310291_105306437_105302584_105298731_105294879_105291027_105287176_105283325_105279474_105275624_105271774_105267925_105264076_105260228_105256380_105252533_105248685_105244839_105240993_105237147_105233302_105229457_105225612_105221768_105217925_105214082_105210239_105206397_105202555_105198713_105194872_105191032_105187192_105183352_105179513_105175674_105171835_105167997_105164160_105160323_105156486_105152650_105148814_105144979_105141144_105137309_105133475_105129641_105125808_105121975_105118143_105114311_105110479_105106648_105102818_105098987_105095158_105091328_105087499_105083671_105079843_105076015_105072188_105068361_105064534_105060708_105056883_105053058_105049233_105045409_105041585_105037761_105033938_105030116_105026294_105022472_105018650_105014830_105011009_105007189_105003369_104999550_104995731_104991913_104988095_104984278_104980460_104976644_104972827_104969012_104965196_104961381_104957567_104953752_104949939_104946125_104942312_104938500_104934688_104930876_104927065_104923254_104919444_104915634_104911824_104908015_104904206_104900398_104896590_104892783_104888975_104885169_104881363_104877557_104873751_104869946_104866142_104862338_104858534_104854730_104850928_104847125_104843323_104839521_104835720_104831919_104828119_104824319_104820519_104816720_104812921_104809122_104805324_104801527_104797730_104793933_104790137_104786341_104782545_104778750_104774955_104771161_104767367_104763574_104759781_104755988_104752196_104748404_104744612_104740821_104737031_104733240_104729451_104725661_104721872_104718084_104714295_104710508_104706720_104702933_104699147_104695360_104691575_104687789_104684004_104680220_104676436_104672652_104668869_104665086_104661303_104657521_104653739_104649958_104646177_104642396_104638616_104634837_104631057_104627278_104623500_104619722_104615944_104612167_104608390_104604613,
  104600837_104597061_104593286_104589511_104585736_104581962_104578188_104574415_104570642_104566870_104563097_104559326_104555554_104551783_104548013_104544242_104540473_104536703_104532934_104529166_104525397_104521630_104517862_104514095_104510329_104506562_104502796_104499031_104495266_104491501_104487737_104483973_104480209_104476446_104472684_104468921_104465159_104461398_104457637_104453876_104450115_104446355_104442596_104438837_104435078_104431319_104427561_104423804_104420046_104416289_104412533_104408777_104405021_104401266_104397511_104393756_104390002_104386248_104382495_104378742_104374989_104371237_104367485_104363733_104359982_104356232_104352481_104348731_104344982_104341232_104337484_104333735_104329987_104326239_104322492_104318745_104314999_104311253_104307507_104303761_104300016_104296272_104292527_104288784_104285040_104281297_104277554_104273812_104270070_104266328_104262587_104258846_104255106_104251366_104247626_104243886_104240148_104236409_104232671_104228933_104225195_104221458_104217722_104213985_104210249_104206514_104202778_104199043_104195309_104191575_104187841_104184108_104180375_104176642_104172910_104169178_104165446_104161715_104157985_104154254_104150524_104146794_104143065_104139336_104135608_104131879_104128152_104124424_104120697_104116970_104113244_104109518_104105792_104102067_104098342_104094618_104090894_104087170_104083446_104079723_104076001_104072278_104068556_104064835_104061113_104057393_104053672_104049952_104046232_104042513_104038794_104035075_104031357_104027639_104023921_104020204_104016487_104012770_104009054_104005338_104001623_103997908_103994193_103990479_103986765_103983051_103979338_103975625_103971912_103968200_103964488_103960776_103957065_103953354_103949644_103945934_103942224_103938515_103934806_103931097_103927389_103923681_103919973_103916266_103912559_103908852_103905146_103901440_103897735_103894030_103890325_103886620_103882916_103879213_103875509_103871806_103868103_103864401_103860699_103856997_103853296_103849595_103845895_103842194_103838494_103834795_103831096_103827397_103823698_103820000_103816302_103812605_103808908_103805211_103801514_103797818_103794123_103790427_103786732_103783037_103779343_103775649_103771955_103768262_103764569_103760876_103757184_103753492_103749800_103746109_103742418_103738728_103735037_103731347_103727658_103723969_103720280_103716591_103712903_103709215_103705527_103701840_103698153_103694467_103690780_103687095_103683409_103679724_103676039_103672354_103668670_103664986_103661303_103657620_103653937_103650254,
  103646572_103642890_103639209_103635528_103631847_103628166_103624486_103620806_103617127_103613448_103609769_103606090_103602412_103598734_103595057_103591379_103587702_103584026_103580350_103576674_103572998_103569323_103565648_103561973_103558299_103554625_103550952_103547278_103543605_103539933_103536261_103532589_103528917_103525246_103521575_103517904_103514234_103510564_103506894_103503224_103499555_103495887_103492218_103488550_103484882_103481215_103477548_103473881_103470215_103466548_103462883_103459217_103455552_103451887_103448222_103444558_103440894_103437231_103433567_103429904_103426242_103422579_103418917_103415256_103411594_103407933_103404272_103400612_103396952_103393292_103389632_103385973_103382314_103378656_103374998_103371340_103367682_103364025_103360368_103356711_103353055_103349399_103345743_103342087_103338432_103334777_103331123_103327469_103323815_103320161_103316508_103312855_103309202_103305550_103301898_103298246_103294595_103290944_103287293_103283642_103279992_103276342_103272693_103269043_103265394_103261746_103258097_103254449_103250801_103247154_103243507_103239860_103236213_103232567_103228921_103225276_103221630_103217985_103214340_103210696_103207052_103203408_103199764_103196121_103192478_103188836_103185193_103181551_103177909_103174268_103170627_103166986_103163345_103159705_103156065_103152425_103148786_103145147_103141508_103137870_103134231_103130593_103126956_103123319_103119681_103116045_103112408_103108772_103105136_103101501_103097865_103094230_103090596_103086961_103083327_103079693_103076060_103072427_103068794_103065161_103061528_103057896_103054265_103050633_103047002_103043371_103039740_103036110_103032480_103028850_103025220_103021591_103017962_103014333_103010705_103007077_103003449_102999822_102996194_102992567_102988941_102985314_102981688_102978062_102974437_102970812_102967187_102963562_102959937_102956313_102952689_102949066_102945442_102941819_102938197_102934574_102930952_102927330_102923708_102920087_102916466_102912845_102909224_102905604_102901984_102898364_102894745_102891126_102887507_102883888_102880270_102876652_102873034_102869416_102865799_102862182_102858565_102854949_102851333_102847717_102844101_102840486_102836871_102833256_102829641_102826027_102822413_102818799_102815186_102811573_102807960_102804347_102800735_102797122_102793510_102789899_102786288_102782676_102779066_102775455_102771845_102768235_102764625_102761015_102757406_102753797_102750188_102746580_102742972_102739364_102735756_102732149_102728542_102724935_102721328_102717722,
  102714116_102710510_102706904_102703299_102699694_102696089_102692484_102688880_102685276_102681672_102678069_102674465_102670862_102667260_102663657_102660055_102656453_102652851_102649249_102645648_102642047_102638446_102634846_102631246_102627646_102624046_102620447_102616847_102613248_102609650_102606051_102602453_102598855_102595257_102591660_102588062_102584465_102580869_102577272_102573676_102570080_102566484_102562889_102559293_102555698_102552104_102548509_102544915_102541321_102537727_102534133_102530540_102526947_102523354_102519762_102516169_102512577_102508985_102505394_102501802_102498211_102494620_102491030_102487439_102483849_102480259_102476670_102473080_102469491_102465902_102462313_102458725_102455136_102451548_102447961_102444373_102440786_102437199_102433612_102430025_102426439_102422853_102419267_102415681_102412096_102408510_102404925_102401341_102397756_102394172_102390588_102387004_102383420_102379837_102376254_102372671_102369088_102365506_102361924_102358342_102354760_102351178_102347597_102344016_102340435_102336854_102333274_102329694_102326114_102322534_102318955_102315375_102311796_102308218_102304639_102301061_102297482_102293904_102290327_102286749_102283172_102279595_102276018_102272441_102268865_102265289_102261713_102258137_102254562_102250986_102247411_102243836_102240262_102236687_102233113_102229539_102225965_102222392_102218819_102215245_102211673_102208100_102204527_102200955_102197383_102193811_102190240_102186668_102183097_102179526_102175955_102172385_102168814_102165244_102161674_102158104_102154535_102150966_102147397_102143828_102140259_102136691_102133122_102129554_102125986_102122419_102118851_102115284_102111717_102108150_102104584_102101017_102097451_102093885_102090319_102086754_102083188_102079623_102076058_102072493_102068929_102065364_102061800_102058236_102054673_102051109_102047546_102043982_102040420_102036857_102033294_102029732_102026170_102022608_102019046_102015484_102011923_102008362_102004801_102001240_101997679_101994119_101990559_101986999_101983439_101979879_101976320_101972761_101969202_101965643_101962084_101958526_101954967_101951409_101947851_101944294_101940736_101937179_101933622_101930065_101926508_101922951_101919395_101915839_101912283_101908727_101905171_101901616_101898061_101894506_101890951_101887396_101883842_101880287_101876733_101873179_101869625_101866072_101862518_101858965_101855412_101851859_101848307_101844754_101841202_101837650_101834098_101830546_101826994_101823443_101819892_101816341_101812790_101809239_101805688_101802138,
  101798588_101795038_101791488_101787939_101784389_101780840_101777291_101773742_101770193_101766644_101763096_101759548_101756000_101752452_101748904_101745356_101741809_101738262_101734715_101731168_101727621_101724075_101720528_101716982_101713436_101709890_101706345_101702799_101699254_101695709_101692164_101688619_101685074_101681530_101677985_101674441_101670897_101667353_101663809_101660266_101656723_101653179_101649636_101646093_101642551_101639008_101635466_101631924_101628382_101624840_101621298_101617756_101614215_101610674_101607133_101603592_101600051_101596510_101592970_101589429_101585889_101582349_101578809_101575270_101571730_101568191_101564652_101561113_101557574_101554035_101550496_101546958_101543419_101539881_101536343_101532806_101529268_101525730_101522193_101518656_101515119_101511582_101508045_101504508_101500972_101497435_101493899_101490363_101486827_101483291_101479756_101476220_101472685_101469150_101465615_101462080_101458545_101455011_101451476_101447942_101444408_101440874_101437340_101433806_101430273_101426739_101423206_101419673_101416140_101412607_101409074_101405542_101402009_101398477_101394945_101391413_101387881_101384349_101380817_101377286_101373754_101370223_101366692_101363161_101359630_101356100_101352569_101349039_101345508_101341978_101338448_101334918_101331389_101327859_101324330_101320800_101317271_101313742_101310213_101306684_101303156_101299627_101296099_101292570_101289042_101285514_101281986_101278458_101274931_101271403_101267876_101264348_101260821_101257294_101253767_101250240_101246714_101243187_101239661_101236135_101232608_101229082_101225556_101222031_101218505_101214979_101211454_101207929_101204403_101200878_101197353_101193829_101190304_101186779_101183255_101179730_101176206_101172682_101169158_101165634_101162110_101158587_101155063_101151540_101148016_101144493_101140970_101137447_101133924_101130401_101126879_101123356_101119834_101116312_101112789_101109267_101105745_101102224_101098702_101095180_101091659_101088137_101084616_101081095_101077574_101074053_101070532_101067011_101063490_101059970_101056449_101052929_101049409_101045888_101042368_101038849_101035329_101031809_101028289_101024770_101021250_101017731_101014212_101010693_101007174_101003655_101000136_100996617_100993099_100989580_100986062_100982543_100979025_100975507_100971989_100968471_100964953_100961436_100957918_100954400_100950883_100947366_100943848_100940331_100936814_100933297_100929780_100926264_100922747_100919230_100915714_100912197_100908681_100905165_100901649_100898133,
  100894617_100891101_100887585_100884069_100880554_100877038_100873523_100870007_100866492_100862977_100859462_100855947_100852432_100848917_100845402_100841888_100838373_100834859_100831344_100827830_100824316_100820801_100817287_100813773_100810259_100806746_100803232_100799718_100796205_100792691_100789178_100785664_100782151_100778638_100775125_100771612_100768099_100764586_100761073_100757560_100754048_100750535_100747023_100743510_100739998_100736485_100732973_100729461_100725949_100722437_100718925_100715413_100711902_100708390_100704878_100701367_100697855_100694344_100690832_100687321_100683810_100680299_100676788_100673277_100669766_100666255_100662744_100659233_100655723_100652212_100648701_100645191_100641681_100638170_100634660_100631150_100627640_100624129_100620619_100617109_100613600_100610090_100606580_100603070_100599561_100596051_100592541_100589032_100585522_100582013_100578504_100574995_100571485_100567976_100564467_100560958_100557449_100553940_100550431_100546923_100543414_100539905_100536397_100532888_100529379_100525871_100522363_100518854_100515346_100511838_100508329_100504821_100501313_100497805_100494297_100490789_100487281_100483773_100480265_100476758_100473250_100469742_100466235_100462727_100459220_100455712_100452205_100448697_100445190_100441683_100438175_100434668_100431161_100427654_100424147_100420640_100417133_100413626_100410119_100406612_100403105_100399598_100396092_100392585_100389078_100385572_100382065_100378558_100375052_100371545_100368039_100364532_100361026_100357520_100354013_100350507_100347001_100343495_100339989_100336483_100332976_100329470_100325964_100322458_100318952_100315446_100311941_100308435_100304929_100301423_100297917_100294412_100290906_100287400_100283894_100280389_100276883_100273378_100269872_100266367_100262861_100259356_100255850_100252345_100248839_100245334_100241829_100238323_100234818_100231313_100227808_100224302_100220797_100217292_100213787_100210282_100206777_100203272_100199767_100196261_100192756_100189251_100185746_100182241_100178737_100175232_100171727_100168222_100164717_100161212_100157707_100154202_100150698_100147193_100143688_100140183_100136678_100133174_100129669_100126164_100122659_100119155_100115650_100112145_100108641_100105136_100101631_100098127_100094622_100091118_100087613_100084108_100080604_100077099_100073595_100070090_100066586_100063081_100059577_100056072_100052567_100049063_100045558_100042054_100038549_100035045_100031540_100028036_100024531_100021027_100017522_100014018_100010513_100007009_100003504_100000000]

end Pmesh
