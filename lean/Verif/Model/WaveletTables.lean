import Verif.Model.Window

/-!
# The tables of the wavelet windows, pmesh/_window_wavelets.h

Written from the C source by a script: each group of nine digits is `10^8 (1 + v)` for an entry `v` of the table, 256 entries in
each number, the first on the left; the last number is filled up with zeros `v = 0`, which are not part of the table.
-/

namespace Pmesh

/-- `_sym6_table`, pmesh/_window_wavelets.h:8-456: 1796 entries. -/
def sym6Rows : List ℕ := [
  99790520_099779263_099767913_099756491_099745005_099733435_099721791_099710106_099698413_099686773_099675204_099663661_099652119_099640582_099629037_099617478_099605883_099594179_099582358_099570478_099558599_099546800_099535122_099523542_099512058_099500668_099489388_099478289_099467408_099456725_099446276_099436125_099426349_099417089_099408387_099400147_099392304_099384810_099377620_099370732_099364117_099357691_099351422_099345331_099339435_099333766_099328327_099323076_099317984_099313029_099308197_099303497_099298924_099294439_099290035_099285734_099281555_099277551_099273727_099270009_099266354_099262750_099259164_099255567_099251912_099248097_099244091_099239956_099235742_099231510_099227292_099223066_099218833_099214610_099210411_099206268_099202193_099198160_099194184_099190311_099186593_099183118_099179914_099176916_099174083_099171386_099168797_099166318_099163930_099161574_099159231_099156923_099154669_099152510_099150454_099148465_099146523_099144611_099142722_099140889_099139118_099137362_099135627_099133965_099132428_099131124_099130079_099129184_099128380_099127662_099126987_099126333_099125640_099124749_099123626_099122384_099121125_099119995_099119063_099118276_099117618_099117086_099116703_099116588_099116795_099117264_099118047_099119272_099121082_099123744_099127332_099131636_099136517_099141903_099147694_099153852_099160283_099166759_099173195_099179687_099186296_099193088_099200085_099207207_099214422_099221766_099229220_099236754_099244296_099251670_099258829_099265850_099272800_099279822_099286919_099293844_099300451_099306735_099312585_099317881_099322444_099325884_099328098_099329335_099329799_099329735_099329278_099328361_099326997_099325267_099323238_099321047_099318759_099316305_099313762_099311311_099309158_099307658_099306929_099306760_099307007_099307544_099308288_099309288_099310521_099311854_099313247_099314726_099316342_099318241_099320446_099322838_099325325_099327766_099330134_099332620_099335326_099338226_099341408_099345002_099349178_099354268_099360383_099367304_099374913_099383182_099392048_099401533_099411568_099421872_099432417_099443434_099455158_099467961_099482005_099497173_099513418_099530672_099548989_099568727_099590080_099612967_099637557_099664143_099693080_099725050_099760248_099798200_099838568_099881083_099925514_099971855_100019964_100069454_100120158_100172130_100225415_100280147_100336307_100393668_100452056_100511298_100571293_100632102_100693713_100755977_100818868_100882434_100946740_101011992_101078197_101145046_101212340_101280000_101347875_101415843,
  101483711_101551080_101617817_101684121_101750147_101816081_101882013_101947851_102013574_102079238_102144871_102210539_102276255_102341913_102407537_102473254_102539200_102605632_102672612_102739926_102807421_102874981_102942500_103009964_103077297_103144317_103210947_103277213_103343143_103408817_103474233_103539271_103603849_103667882_103731327_103794248_103856650_103918427_103979580_104040191_104100350_104160271_104219990_104279267_104337957_104396018_104453348_104509887_104565503_104619863_104672886_104724767_104775690_104825933_104875609_104924589_104972819_105020261_105066940_105113084_105158790_105203923_105248574_105292979_105337407_105382385_105428043_105473941_105519780_105565376_105610514_105655108_105698960_105741609_105782873_105822903_105861793_105899656_105936514_105972179_106006557_106039670_106071455_106101854_106130731_106157749_106182807_106206035_106227544_106247601_106266201_106282860_106297285_106309438_106319094_106326024_106329884_106329936_106325976_106318444_106307707_106294215_106278206_106259533_106238192_106214298_106187961_106159444_106128875_106096121_106061324_106024813_105986966_105948465_105909523_105869729_105828784_105786408_105742423_105696937_105649921_105601153_105550558_105498118_105443893_105388150_105330902_105271901_105210927_105147620_105081904_105014190_104944723_104873531_104800808_104726768_104651713_104576260_104500629_104424474_104347605_104269938_104191387_104112061_104031913_103950575_103868040_103784625_103700700_103616909_103533508_103450281_103367112_103283767_103200317_103117474_103035645_102954776_102875201_102797394_102721978_102650197_102582404_102517807_102455794_102395745_102337257_102280464_102225253_102171195_102118058_102065667_102013959_101963186_101913220_101863580_101813784_101763084_101711214_101658621_101605579_101552219_101498694_101444979_101391187_101337743_101284748_101231939_101179091_101125902_101072235_101018236_100963951_100909345_100854389_100798917_100742887_100686524_100629767_100572321_100513885_100453906_100392230_100329347_100265516_100200729_100135151_100068873_100002165_099935791_099869878_099803851_099737169_099669074_099599206_099527798_099454903_099380522_099304520_099226282_099145500_099062419_098976755_098887891_098795120_098697132_098593556_098485361_098373211_098257537_098138801_098017119_097892868_097766987_097639851_097511174_097380771_097248391_097114005_096978011_096840641_096701942_096562064_096421097_096279268_096137129_095994865_095852302_095709303_095565492_095420911_095276361_095132328_094988858_094846345_094705259,
  94566230_094430501_094298461_094169376_094042719_093918029_093794971_093673659_093553970_093435397_093317749_093201091_093085526_092971381_092858667_092747021_092636146_092525657_092415419_092305777_092196892_092088672_091981231_091874754_091769504_091666078_091564636_091464699_091365970_091268313_091171544_091075673_090980538_090885599_090790764_090696379_090602821_090510718_090420321_090331395_090243818_090157395_090072201_089988893_089907851_089829036_089752769_089679492_089609807_089544922_089485194_089429939_089378603_089330517_089285352_089243427_089204806_089169324_089136885_089107170_089080119_089056238_089035430_089017103_089000656_088984976_088969812_088956249_088944985_088936287_088930683_088928566_088930581_088938106_088951655_088970596_088994572_089023359_089056822_089095321_089138898_089187019_089239749_089297615_089361285_089431995_089510220_089595545_089687722_089786206_089891117_090003905_090125409_090255558_090395034_090544756_090705948_090881063_091070798_091273585_091488219_091713504_091948640_092193858_092448906_092712891_092985335_093265938_093554591_093851757_094157193_094469966_094789164_095113408_095442180_095776245_096116052_096461782_096813669_097171634_097535848_097907030_098285318_098670182_099061175_099457746_099859599_100266903_100679653_101097688_101520891_101948989_102381881_102819839_103262727_103710064_104161364_104615796_105073082_105533839_105998370_106466618_106938749_107414804_107895076_108380538_108871296_109366520_109865400_110366773_110870074_111375600_111883406_112393555_112905809_113419124_113932917_114447378_114961988_115475849_115987883_116496072_116999809_117500368_117998678_118495536_118991546_119486590_119980941_120475499_120970652_121466357_121962515_122458681_122954907_123451839_123950027_124450186_124952607_125456838_125962676_126470231_126979392_127490042_128001938_128514403_129027306_129541278_130056746_130573981_131093275_131614674_132138412_132665124_133194989_133727731_134263058_134800447_135339726_135881192_136425027_136971458_137520484_138071592_138624519_139179384_139735970_140293943_140852824_141411599_141970011_142528750_143088380_143649560_144212653_144777451_145343973_145912440_146483008_147056010_147631557_148209288_148789345_149372286_149958681_150549528_151145097_151744535_152347298_152953170_153561752_154172786_154785803_155399761_156014276_156629838_157246728_157865123_158485134_159106496_159729175_160353557_160979589_161606863_162234888_162862809_163490267_164117511_164744655_165371954_165999284_166625685_167250607_167874155_168495858_169114977,
  169730612_170341062_170945799_171545921_172142177_172735091_173325156_173912357_174497012_175080092_175661940_176242227_176820679_177396842_177970616_178542472_179112692_179681451_180248872_180814750_181379115_181942476_182504845_183065845_183625074_184181668_184735469_185287469_185838250_186387905_186936837_187485330_188033955_188584126_189136159_189689104_190242103_190794012_191344251_191893143_192440719_192986879_193531354_194073269_194612134_195148135_195680801_196209290_196732581_197248804_197757355_198259266_198755308_199246282_199732629_200213950_200690223_201161888_201629092_202091985_202550452_203003707_203451735_203895263_204334960_204772006_205206633_205637502_206063784_206485302_206901404_207311432_207714447_208108533_208492990_208868812_209236537_209596380_209948573_210292747_210629005_210958409_211280944_211595624_211901327_212196161_212479339_212751446_213012764_213263876_213504534_213732699_213947214_214148287_214334952_214505761_214658872_214790683_214900153_214989625_215060843_215115397_215154447_215177786_215185907_215180381_215161954_215130760_215086779_215029313_214958594_214875891_214782347_214679511_214568034_214447098_214316321_214175821_214025430_213865110_213694569_213512753_213319516_213115922_212902748_212680615_212450073_212211212_211964407_211710585_211450100_211182779_210908394_210626355_210336587_210039666_209736026_209426236_209110467_208788081_208458804_208122879_207780122_207430259_207072786_206706414_206330939_205947438_205556869_205160417_204758744_204351625_203939139_203521550_203099192_202672904_202243135_201809601_201372748_200933524_200492982_200052964_199614061_199175104_198735303_198294122_197851049_197406095_196958917_196508488_196054439_195597118_195136803_194673936_194208612_193740366_193268910_192794065_192315696_191833946_191348770_190859756_190366864_189870353_189370492_188867879_188362602_187853887_187341279_186824738_186303929_185778533_185248041_184711321_184168076_183619076_183064925_182506240_181943430_181376396_180805268_180230475_179652256_179070798_178486179_177898194_177306981_176713014_176116756_175518901_174919717_174318822_173716003_173111205_172504316_171895353_171284208_170670469_170054058_169435299_168814451_168191794_167567499_166941487_166313790_165684576_165053915_164421883_163788464_163153409_162516739_161878738_161239669_160599980_159959797_159318686_158676427_158033072_157388479_156742528_156094946_155445003_154792574_154138232_153482496_152826047_152169238_151511890_150854002_150195667_149537040_148878629_148220684_147562965_146905720_146249541,
  145595075_144943474_144295085_143649075_143004909_142362332_141720978_141080718_140441190_139801465_139161233_138520949_137880920_137241465_136602729_135964419_135326456_134689060_134052202_133415771_132779499_132142674_131505121_130867221_130229289_129591960_128955287_128318263_127680317_127041471_126401294_125759319_125114816_124466168_123812979_123156345_122497185_121836568_121175114_120512586_119849079_119184985_118520641_117856652_117193339_116530452_115868353_115207853_114549853_113895886_113246484_112600821_111958329_111318520_110681085_110046280_109414067_108783950_108155811_107529779_106906093_106285401_105667831_105052931_104440347_103829507_103220337_102613681_102010033_101409378_100812127_100218843_099630241_099047711_098471748_097901554_097336708_096777125_096222609_095673333_095129109_094588937_094052776_093521523_092996134_092478114_091968133_091465753_090970808_090482989_090002533_089530953_089069097_088616747_088174629_087743912_087326040_086923785_086537958_086166743_085808814_085463031_085128510_084805356_084493134_084190519_083896922_083612385_083337010_083071343_082815272_082567867_082328345_082095733_081869588_081650401_081438345_081233160_081034898_080843660_080659696_080483812_080316100_080155619_080001721_079854019_079712040_079575569_079444154_079316780_079193097_079073496_078958326_078848129_078743087_078642821_078547125_078455854_078368988_078286900_078209730_078137225_078069503_078006874_077949762_077899099_077855069_077816909_077783993_077755641_077731424_077711426_077695522_077683361_077674695_077669189_077666678_077667386_077671113_077677299_077685374_077694416_077704110_077715047_077727588_077741876_077758144_077776457_077797049_077820579_077847245_077876666_077908582_077942752_077979036_078017584_078058403_078101268_078146164_078193201_078242559_078294657_078349610_078407192_078467239_078529468_078593861_078660940_078730979_078803863_078879808_078959163_079042381_079130402_079223465_079320843_079422014_079526578_079634164_079744712_079857963_079973283_080090394_080209397_080330359_080453455_080578654_080705612_080834083_080963877_081094838_081227000_081360268_081494312_081629045_081764576_081901022_082038730_082177700_082317356_082457334_082597529_082737661_082877485_083016624_083154279_083290210_083424848_083558543_083691717_083824590_083956993_084088907_084220449_084351710_084482896_084614095_084745140_084876135_085007378_085139208_085272239_085406647_085542024_085678068_085814514_085951173_086088107_086225252_086362349_086499299_086636098_086772790_086909592_087046504_087183292,
  87319757_087455600_087590740_087725481_087859989_087994250_088128394_088262577_088397025_088532220_088668316_088804999_088942083_089079479_089217085_089354962_089493039_089630971_089768725_089906547_090044722_090183760_090323853_090464796_090606470_090748664_090891412_091035276_091180567_091327213_091475466_091625693_091778382_091934535_092094419_092257357_092422819_092590263_092759333_092930116_093102499_093276117_093450752_093626224_093802449_093979602_094157549_094335868_094514131_094691683_094868275_095044256_095219834_095395115_095570208_095745048_095919691_096094437_096269339_096444192_096618804_096792901_096966358_097139283_097311711_097483645_097655048_097825721_097995571_098164701_098333016_098500268_098666191_098830314_098992476_099153007_099312072_099469658_099625853_099780661_099934224_100087039_100239156_100390152_100539611_100686925_100831806_100974416_101114794_101252986_101388875_101521915_101651804_101778659_101902213_102021993_102137432_102247469_102351789_102451097_102545896_102636594_102723529_102806681_102886240_102962757_103036465_103107298_103175185_103239914_103301505_103360299_103416564_103470596_103522545_103572273_103619757_103665159_103708484_103749671_103788617_103825016_103858840_103890494_103920245_103948211_103974593_103999522_104023230_104046211_104068627_104090240_104110859_104130245_104148286_104165110_104180751_104195171_104208339_104220151_104230577_104239737_104247594_104253995_104258765_104261564_104262314_104261286_104258686_104254701_104249471_104242991_104235332_104226677_104217117_104206682_104195377_104183115_104169926_104155972_104141394_104126386_104111026_104095185_104078804_104061914_104044478_104026449_104007747_103988166_103967658_103946401_103924510_103902046_103879082_103855627_103831747_103807636_103783341_103758751_103733754_103708161_103681902_103655073_103627723_103599905_103571611_103542668_103512994_103482680_103451655_103419758_103386798_103352400_103316470_103279324_103241180_103202167_103162443_103122073_103081203_103040164_102999089_102957871_102916445_102874742_102832749_102790595_102748341_102705958_102663491_102621005_102578612_102536550_102494900_102453589_102412560_102371671_102330942_102290688_102251099_102212184_102174093_102137009_102101183_102067114_102034951_102004387_101975187_101947122_101920038_101893987_101868926_101844678_101821155_101798310_101776133_101754724_101734045_101713919_101694177_101674562_101654982_101635589_101616473_101597667_101579222_101561134_101543447_101526312_101509764_101493697_101478025_101462656_101447535_101432692,
  101418122_101403779_101389642_101375686_101361911_101348382_101335090_101321957_101308908_101295819_101282652_101269519_101256480_101243524_101230689_101217996_101205508_101193407_101181721_101170310_101159040_101147720_101136259_101124713_101113094_101101411_101089626_101077578_101065180_101052473_101039378_101025752_101011421_100996060_100979574_100962179_100944037_100925282_100906022_100886245_100866003_100845454_100824670_100803646_100782374_100760786_100738899_100716822_100694651_100672506_100650440_100628390_100606334_100584296_100562267_100540237_100518178_100495994_100473672_100451318_100429006_100406782_100384700_100362777_100341060_100319654_100298596_100277849_100257376_100237114_100217043_100197211_100177643_100158371_100139396_100120667_100102159_100083896_100065859_100048012_100030303_100012612_099994916_099977305_099959855_099942657_099925762_099909149_099892826_099876817_099861149_099845876_099831025_099816564_099802522_099788969_099775982_099763694_099752147_099741247_099730930_099721154_099711873_099703084_099694754_099686798_099679183_099671932_099665064_099658606_099652562_099646892_099641572_099636586_099631920_099627576_099623543_099619782_099616282_099613058_099610123_099607516_099605235_099603217_099601420_099599838_099598439_099597189_099596043_099594906_099593748_099592623_099591572_099590635_099589837_099589166_099588628_099588253_099588056_099588039_099588199_099588514_099588985_099589641_099590508_099591625_099593005_099594617_099596443_099598476_099600704_099603121_099605710_099608435_099611283_099614278_099617431_099620756_099624258_099627931_099631776_099635808_099640029_099644428_099648993_099653696_099658530_099663503_099668624_099673905_099679345_099684912_099690588_099696373_099702251_099708204_099714206_099720205_099726184_099732174_099738198_099744286_099750453_099756683_099762973_099769330_099775755_099782266_099788864_099795528_099802260_099809089_099816041_099823167_099830477_099837922_099845470_099853109_099860814_099868566_099876337_099884063_099891721_099899338_099906931_099914509_099922076_099929616_099937129_099944638_099952140_099959609_099967014_099974299_099981441_099988458_099995359_100002162_100008863_100015397_100021728_100027860_100033763_100039394_100044696_100049562_100053960_100057958_100061609_100064958_100068039_100070847_100073394_100075730_100077874_100079830_100081594_100083146_100084491_100085664_100086700_100087640_100088502_100089263_100089913_100090455_100090886_100091202_100091393_100091428_100091301_100091045_100090682_100090229_100089703_100089106,
  100088451_100087770_100087073_100086349_100000000_100000000_100000000_100000000_100000000_100000000_100000000_100000000_100000000_100000000_100000000_100000000_100000000_100000000_100000000_100000000_100000000_100000000_100000000_100000000_100000000_100000000_100000000_100000000_100000000_100000000_100000000_100000000_100000000_100000000_100000000_100000000_100000000_100000000_100000000_100000000_100000000_100000000_100000000_100000000_100000000_100000000_100000000_100000000_100000000_100000000_100000000_100000000_100000000_100000000_100000000_100000000_100000000_100000000_100000000_100000000_100000000_100000000_100000000_100000000_100000000_100000000_100000000_100000000_100000000_100000000_100000000_100000000_100000000_100000000_100000000_100000000_100000000_100000000_100000000_100000000_100000000_100000000_100000000_100000000_100000000_100000000_100000000_100000000_100000000_100000000_100000000_100000000_100000000_100000000_100000000_100000000_100000000_100000000_100000000_100000000_100000000_100000000_100000000_100000000_100000000_100000000_100000000_100000000_100000000_100000000_100000000_100000000_100000000_100000000_100000000_100000000_100000000_100000000_100000000_100000000_100000000_100000000_100000000_100000000_100000000_100000000_100000000_100000000_100000000_100000000_100000000_100000000_100000000_100000000_100000000_100000000_100000000_100000000_100000000_100000000_100000000_100000000_100000000_100000000_100000000_100000000_100000000_100000000_100000000_100000000_100000000_100000000_100000000_100000000_100000000_100000000_100000000_100000000_100000000_100000000_100000000_100000000_100000000_100000000_100000000_100000000_100000000_100000000_100000000_100000000_100000000_100000000_100000000_100000000_100000000_100000000_100000000_100000000_100000000_100000000_100000000_100000000_100000000_100000000_100000000_100000000_100000000_100000000_100000000_100000000_100000000_100000000_100000000_100000000_100000000_100000000_100000000_100000000_100000000_100000000_100000000_100000000_100000000_100000000_100000000_100000000_100000000_100000000_100000000_100000000_100000000_100000000_100000000_100000000_100000000_100000000_100000000_100000000_100000000_100000000_100000000_100000000_100000000_100000000_100000000_100000000_100000000_100000000_100000000_100000000_100000000_100000000_100000000_100000000_100000000_100000000_100000000_100000000_100000000_100000000_100000000_100000000_100000000_100000000_100000000_100000000_100000000_100000000_100000000_100000000_100000000_100000000_100000000_100000000_100000000_100000000]

/-- `_sym12_table`, pmesh/_window_wavelets.h:481-1121: 2564 entries. -/
def sym12Rows : List ℕ := [
  100202856_100207116_100211419_100215765_100220154_100224584_100229056_100233568_100238121_100242713_100247343_100252011_100256716_100261454_100266226_100271029_100275861_100280720_100285604_100290512_100295439_100300385_100305347_100310322_100315309_100320303_100325303_100330307_100335310_100340312_100345310_100350301_100355282_100360252_100365207_100370146_100375065_100379961_100384833_100389677_100394490_100399269_100404012_100408715_100413376_100417992_100422561_100427078_100431542_100435949_100440297_100444583_100448803_100452956_100457038_100461047_100464981_100468836_100472610_100476300_100479904_100483419_100486841_100490168_100493396_100496523_100499546_100502462_100505269_100507963_100510543_100513005_100515348_100517568_100519664_100521633_100523475_100525186_100526766_100528214_100529528_100530708_100531752_100532660_100533431_100534064_100534557_100534911_100535124_100535196_100535127_100534915_100534560_100534063_100533422_100532637_100531708_100530635_100529416_100528052_100526542_100524887_100523086_100521139_100519046_100516808_100514423_100511892_100509213_100506387_100503413_100500290_100497016_100493592_100490016_100486287_100482405_100478368_100474177_100469829_100465324_100460660_100455838_100450857_100445715_100440412_100434949_100429325_100423540_100417594_100411487_100405218_100398788_100392196_100385443_100378527_100371449_100364208_100356805_100349239_100341510_100333618_100325563_100317345_100308963_100300417_100291708_100282835_100273798_100264597_100255233_100245706_100236016_100226163_100216148_100205971_100195632_100185130_100174466_100163638_100152648_100141494_100130177_100118697_100107053_100095246_100083276_100071143_100058847_100046388_100033768_100020987_100008046_099994946_099981690_099968278_099954713_099940997_099927133_099913121_099898965_099884666_099870226_099855647_099840932_099826083_099811101_099795990_099780750_099765385_099749897_099734286_099718556_099702708_099686745_099670667_099654477_099638177_099621769_099605255_099588637_099571916_099555095_099538175_099521156_099504039_099486826_099469515_099452108_099434605_099417006_099399311_099381519_099363631_099345647_099327566_099309388_099291113_099272740_099254270_099235703_099217039_099198279_099179424_099160475_099141433_099122299_099103074_099083758_099064353_099044859_099025277_099005607_098985851_098966009_098946083_098926072_098905978_098885801_098865543_098845203_098824782_098804282_098783702_098763044_098742311_098721502_098700621_098679669_098658647_098637558_098616404_098595186_098573906_098552567_098531168,
  98509714_098488205_098466645_098445037_098423382_098401684_098379945_098358171_098336363_098314526_098292664_098270782_098248886_098226982_098205077_098183177_098161291_098139426_098117590_098095791_098074038_098052339_098030702_098009137_097987653_097966258_097944962_097923775_097902705_097881763_097860958_097840299_097819795_097799456_097779292_097759312_097739526_097719944_097700577_097681435_097662529_097643868_097625463_097607323_097589459_097571880_097554594_097537612_097520943_097504595_097488577_097472899_097457570_097442598_097427991_097413758_097399908_097386449_097373389_097360736_097348501_097336692_097325319_097314391_097303918_097293909_097284373_097275320_097266758_097258697_097251145_097244109_097237599_097231622_097226187_097221301_097216972_097213205_097210008_097207388_097205350_097203899_097203042_097202785_097203132_097204089_097205663_097207859_097210682_097214137_097218229_097222963_097228343_097234373_097241056_097248396_097256397_097265062_097274395_097284398_097295074_097306427_097318459_097331173_097344572_097358658_097373433_097388902_097405068_097421935_097439507_097457789_097476785_097496500_097516938_097538103_097560001_097582634_097606007_097630123_097654986_097680600_097706968_097734093_097761977_097790624_097820035_097850211_097881154_097912866_097945345_097978595_098012614_098047404_098082966_098119300_098156406_098194284_098232932_098272351_098312538_098353491_098395207_098437683_098480916_098524903_098569641_098615124_098661348_098708309_098756001_098804419_098853556_098903408_098953967_099005228_099057186_099109834_099163169_099217185_099271877_099327239_099383265_099439949_099497286_099555267_099613887_099673138_099733012_099793502_099854599_099916296_099978582_100041449_100104886_100168882_100233426_100298507_100364114_100430235_100496858_100563973_100631569_100699634_100768158_100837128_100906534_100976362_101046602_101117240_101188265_101259664_101331424_101403534_101475982_101548755_101621843_101695231_101768908_101842862_101917082_101991556_102066272_102141221_102216393_102291780_102367374_102443168_102519155_102595328_102671680_102748206_102824899_102901753_102978761_103055919_103133219_103210657_103288228_103365924_103443739_103521667_103599701_103677832_103756053_103834358_103912736_103991182_104069688_104148246_104226850_104305493_104384168_104462867_104541582_104620306_104699030_104777747_104856448_104935124_105013765_105092365_105170912_105249399_105327816_105406151_105484393_105562533_105640558_105718457_105796218_105873832_105951286_106028571_106105677_106182592,
  106259308_106335811_106412092_106488139_106563939_106639481_106714751_106789736_106864423_106938796_107012843_107086546_107159889_107232854_107305421_107377572_107449286_107520542_107591318_107661594_107731347_107800557_107869201_107937259_108004706_108071522_108137681_108203162_108267940_108331992_108395294_108457822_108519551_108580457_108640518_108699709_108758004_108815380_108871810_108927271_108981736_109035182_109087583_109138918_109189162_109238295_109286295_109333141_109378814_109423292_109466556_109508585_109549361_109588864_109627075_109663973_109699541_109733759_109766609_109798073_109828129_109856758_109883939_109909651_109933875_109956589_109977773_109997407_110015470_110031944_110046810_110060050_110071645_110081576_110089826_110096375_110101206_110104302_110105643_110105214_110102996_110098974_110093131_110085451_110075917_110064511_110051218_110036020_110018902_109999848_109978841_109955869_109930916_109903972_109875023_109844059_109811068_109776039_109738962_109699826_109658621_109615336_109569963_109522491_109472910_109421212_109367387_109311425_109253315_109193047_109130609_109065988_108999174_108930154_108858918_108785453_108709751_108631802_108551597_108469128_108384387_108297366_108208057_108116454_108022550_107926340_107827819_107726982_107623826_107518349_107410548_107300423_107187972_107073194_106956089_106836657_106714901_106590821_106464423_106335712_106204694_106071379_105935778_105797901_105657761_105515372_105370748_105223904_105074856_104923621_104770218_104614664_104456979_104297184_104135299_103971345_103805342_103637309_103467268_103295238_103121239_102945294_102767424_102587651_102405999_102222492_102037156_101850016_101661100_101470434_101278044_101083958_100888206_100690816_100491819_100291244_100089123_099885488_099680370_099473803_099265818_099056446_098845718_098633666_098420323_098205720_097989892_097772871_097554693_097335392_097115005_096893568_096671117_096447689_096223318_095998042_095771896_095544916_095317139_095088601_094859336_094629379_094398766_094167529_093935700_093703309_093470385_093236955_093003048_092768690_092533908_092298728_092063178_091827283_091591071_091354569_091117803_090880798_090643581_090406178_090168614_089930918_089693117_089455237_089217308_088979356_088741412_088503502_088265654_088027895_087790253_087552754_087315425_087078296_086841394_086604750_086368393_086132354_085896667_085661364_085426478_085192041_084958088_084724652_084491768_084259472_084027800_083796788_083566471_083336888_083108075_082880067_082652901_082426610_082201230_081976793,
  81753334_081530888_081309489_081089172_080869974_080651931_080435081_080219461_080005110_079792065_079580365_079370050_079161162_078953741_078747832_078543476_078340720_078139607_077940182_077742492_077546581_077352493_077160273_076969965_076781615_076595268_076410971_076228770_076048712_075870845_075695217_075521879_075350877_075182259_075016074_074852369_074691194_074532597_074376626_074223330_074072757_073924954_073779967_073637843_073498625_073362355_073229073_073098820_072971634_072847554_072726620_072608868_072494337_072383065_072275090_072170450_072069182_071971322_071876907_071785973_071698559_071614702_071534440_071457812_071384855_071315608_071250111_071188400_071130513_071076487_071026356_070980157_070937926_070899698_070865511_070835402_070809406_070787563_070769911_070756488_070747332_070742481_070741971_070745842_070754131_070766876_070784117_070805890_070832234_070863185_070898781_070939057_070984045_071033779_071088288_071147603_071211752_071280764_071354669_071433493_071517266_071606014_071699765_071798548_071902389_072011314_072125349_072244520_072368854_072498380_072633123_072773111_072918372_073068933_073224819_073386056_073552667_073724675_073902100_074084963_074273282_074467078_074666368_074871170_075081501_075297377_075518816_075745831_075978436_076216642_076460460_076709899_076964969_077225677_077492029_077764032_078041687_078324997_078613961_078908576_079208834_079514726_079826239_080143357_080466064_080794342_081128170_081467526_081812388_082162731_082518529_082879756_083246382_083618379_083995714_084378355_084766272_085159433_085557805_085961356_086370052_086783859_087202741_087626663_088055585_088489468_088928270_089371949_089820461_090273763_090731812_091194562_091661970_092133989_092610575_093091681_093577260_094067263_094561643_095060350_095563337_096070554_096581955_097097489_097617108_098140761_098668398_099199967_099735412_100274680_100817711_101364449_101914836_102468814_103026326_103587311_104151713_104719472_105290531_105864833_106442318_107022930_107606611_108193305_108782958_109375516_109970929_110569145_111170115_111773787_112380113_112989044_113600528_114214515_114830954_115449794_116070983_116694471_117320209_117948145_118578231_119210414_119844645_120480874_121119050_121759119_122401031_123044734_123690175_124337306_124986074_125636429_126288317_126941688_127596486_128252657_128910144_129568888_130228829_130889904_131552052_132215212_132879320_133544313_134210127_134876697_135543958_136211847_136880297_137549243_138218617_138888356_139558395_140228670_140899120_141569683,
  142240295_142910895_143581420_144251809_144921997_145591921_146261514_146930713_147599451_148267664_148935288_149602258_150268508_150933972_151598586_152262284_152925000_153586666_154247218_154906588_155564711_156221523_156876960_157530959_158183453_158834380_159483673_160131268_160777098_161421094_162063189_162703312_163341396_163977373_164611175_165242734_165871983_166498853_167123278_167745193_168364530_168981224_169595211_170206427_170814811_171420305_172022850_172622391_173218872_173812237_174402433_174989404_175573098_176153458_176730429_177303957_177873988_178440469_179003345_179562566_180118076_180669824_181217755_181761818_182301958_182838121_183370254_183898302_184422213_184941937_185457420_185968611_186475458_186977908_187475908_187969402_188458335_188942649_189422285_189897182_190367283_190832526_191292852_191748201_192198513_192643726_193083780_193518614_193948169_194372384_194791198_195204554_195612395_196014667_196411316_196802290_197187538_197567008_197940649_198308412_198670245_199026098_199375921_199719661_200057271_200388701_200713904_201032831_201345435_201651669_201951485_202244837_202531678_202811963_203085647_203352685_203613037_203866662_204113523_204353582_204586803_204813148_205032585_205245077_205450590_205649090_205840541_206024912_206202170_206372287_206535234_206690984_206839511_206980791_207114800_207241519_207360929_207473011_207577752_207675139_207765167_207847830_207923130_207991067_208051646_208104874_208150759_208189311_208220542_208244463_208261089_208270434_208272516_208267354_208254969_208235382_208208615_208174691_208133633_208085467_208030218_207967911_207898573_207822234_207738923_207648675_207551524_207447503_207336650_207219000_207094589_206963454_206825632_206681157_206530066_206372394_206208178_206037456_205860267_205676649_205486640_205290278_205087602_204878652_204663468_204442090_204214561_203980922_203741220_203495502_203243817_202986216_202722749_202453467_202178422_201897665_201611249_201319224_201021642_200718553_200410011_200096067_199776774_199452183_199122346_198787311_198447128_198101847_197751517_197396186_197035902_196670714_196300674_195925831_195546238_195161947_194773010_194379477_193981401_193578832_193171820_192760417_192344672_191924634_191500354_191071883_190639274_190202577_189761844_189317126_188868474_188415942_187959581_187499445_187035588_186568067_186096940_185622268_185144114_184662541_184177613_183689394_183197951_182703348_182205653_181704930_181201245_180694664_180185253_179673081_179158213_178640717_178120658_177598100_177073110_176545750,
  176016085_175484177_174950089_174413886_173875630_173335387_172793222_172249200_171703384_171155838_170606624_170055806_169503443_168949596_168394323_167837683_167279734_166720535_166160142_165598614_165036005_164472371_163907767_163342246_162775863_162208671_161640724_161072076_160502784_159932905_159362495_158791614_158220317_157648663_157076707_156504508_155932120_155359599_154786998_154214372_153641773_153069257_152496874_151924677_151352716_150781039_150209693_149638725_149068181_148498105_147928544_147359540_146791140_146223389_145656335_145090022_144524497_143959804_143395987_142833091_142271159_141710234_141150359_140591577_140033929_139477461_138922215_138368234_137815563_137264242_136714315_136165825_135618815_135073330_134529415_133987116_133446483_132907566_132370418_131835092_131301643_130770125_130240593_129713101_129187707_128664463_128143428_127624654_127108198_126594117_126082467_125573301_125066674_124562639_124061245_123562546_123066591_122573429_122083111_121595684_121111201_120629711_120151264_119675912_119203703_118734686_118268909_117806419_117347262_116891483_116439128_115990240_115544862_115103038_114664811_114230221_113799308_113372109_112948663_112529006_112113172_111701196_111293114_110888959_110488767_110092572_109700411_109312318_108928326_108548468_108172776_107801279_107434007_107070987_106712247_106357810_106007700_105661940_105320551_104983551_104650956_104322776_103999023_103679706_103364829_103054399_102748419_102446890_102149815_101857195_101569030_101285320_101006062_100731252_100460885_100194955_099933456_099676379_099423715_099175454_098931586_098692100_098456985_098226229_097999816_097777732_097559959_097346481_097137280_096932338_096731639_096535164_096342898_096154825_095970930_095791199_095615617_095444167_095276834_095113602_094954454_094799375_094648347_094501352_094358372_094219390_094084387_093953343_093826236_093703043_093583739_093468298_093356695_093248903_093144894_093044642_092948118_092855297_092766151_092680653_092598776_092520491_092445769_092374581_092306898_092242691_092181929_092124582_092070621_092020017_091972738_091928754_091888033_091850542_091816248_091785116_091757114_091732208_091710363_091691547_091675727_091662871_091652949_091645930_091641781_091640471_091641967_091646238_091653249_091662970_091675366_091690404_091708050_091728268_091751025_091776284_091804007_091834153_091866682_091901553_091938722_091978148_092019787_092063595_092109531_092157551_092207614_092259678_092313700_092369637_092427447_092487086_092548512_092611683_092676558_092743094,
  92811251_092880988_092952266_093025044_093099283_093174941_093251977_093330353_093410029_093490966_093573129_093656479_093740984_093826611_093913329_094001107_094089917_094179730_094270516_094362248_094454901_094548448_094642863_094738121_094834199_094931071_095028715_095127107_095226221_095326033_095426515_095527643_095629390_095731732_095834642_095938097_096042072_096146544_096251492_096356894_096462728_096568972_096675605_096782607_096889956_096997634_097105620_097213897_097322446_097431248_097540287_097649545_097759003_097868642_097978443_098088387_098198455_098308629_098418892_098529225_098639612_098750038_098860487_098970945_099081396_099191825_099302217_099412555_099522824_099633010_099743095_099853064_099962901_100072588_100182107_100291440_100400567_100509465_100618109_100726477_100834542_100942281_101049666_101156671_101263271_101369440_101475152_101580382_101685103_101789287_101892909_101995942_102098360_102200137_102301247_102401666_102501368_102600329_102698526_102795933_102892526_102988278_103083165_103177162_103270243_103362385_103453564_103543757_103632943_103721101_103808212_103894258_103979218_104063075_104145810_104227408_104307850_104387123_104465210_104542097_104617769_104692214_104765416_104837363_104908040_104977432_105045523_105112298_105177742_105241842_105304583_105365951_105425934_105484522_105541702_105597465_105651801_105704700_105756155_105806157_105854700_105901779_105947390_105991529_106034194_106075383_106115096_106153330_106190086_106225363_106259160_106291477_106322315_106351676_106379560_106405972_106430915_106454393_106476412_106496977_106516096_106533772_106550013_106564826_106578218_106590198_106600774_106609953_106617746_106624160_106629204_106632886_106635213_106636191_106635825_106634121_106631084_106626719_106621033_106614029_106605714_106596094_106585175_106572965_106559469_106544695_106528650_106511340_106492775_106472963_106451915_106429639_106406147_106381449_106355557_106328483_106300238_106270833_106240278_106208585_106175767_106141835_106106803_106070684_106033492_105995243_105955952_105915636_105874311_105831992_105788698_105744445_105699251_105653135_105606116_105558212_105509443_105459829_105409389_105358142_105306106_105253300_105199739_105145443_105090427_105034710_104978309_104921243_104863529_104805185_104746231_104686686_104626569_104565899_104504695_104442977_104380767_104318084_104254952_104191392_104127427_104063078_103998370_103933324_103867962_103802307_103736379_103670199_103603788_103537169_103470362_103403389_103336272_103269031_103201689_103134267,
  103066787_102999267_102931730_102864194_102796680_102729208_102661796_102594465_102527233_102460117_102393135_102326302_102259633_102193142_102126839_102060736_101994843_101929171_101863727_101798522_101733564_101668860_101604417_101540244_101476347_101412732_101349405_101286371_101223637_101161209_101099092_101037294_100975820_100914676_100853868_100793402_100733280_100673508_100614089_100555026_100496322_100437980_100380003_100322395_100265158_100208296_100151812_100095709_100039991_099984660_099929718_099875168_099821013_099767258_099713904_099660956_099608416_099556287_099504573_099453275_099402395_099351933_099301891_099252268_099203063_099154278_099105913_099057967_099010442_098963336_098916652_098870389_098824550_098779134_098734143_098689579_098645444_098601743_098558479_098515655_098473278_098431352_098389882_098348873_098308331_098268260_098228664_098189548_098150918_098112777_098075133_098037989_098001351_097965226_097929617_097894532_097859975_097825951_097792466_097759524_097727131_097695292_097664014_097633301_097603158_097573592_097544605_097516202_097488386_097461159_097434523_097408479_097383027_097358169_097333906_097310237_097287162_097264681_097242795_097221502_097200802_097180695_097161178_097142252_097123916_097106170_097089015_097072450_097056476_097041093_097026302_097012102_096998492_096985473_096973043_096961200_096949943_096939272_096929185_096919681_096910759_096902416_096894652_096887465_096880854_096874815_096869349_096864451_096860121_096856356_096853156_096850519_096848443_096846927_096845966_096845561_096845707_096846400_096847638_096849415_096851728_096854573_096857945_096861840_096866254_096871183_096876622_096882567_096889014_096895958_096903396_096911324_096919737_096928635_096938013_096947871_096958205_096969013_096980295_096992046_097004266_097016951_097030099_097043707_097057771_097072290_097087260_097102680_097118544_097134852_097151599_097168782_097186398_097204443_097222912_097241803_097261110_097280831_097300961_097321496_097342432_097363764_097385486_097407594_097430081_097452940_097476164_097499744_097523673_097547943_097572544_097597470_097622709_097648255_097674096_097700224_097726629_097753301_097780231_097807409_097834825_097862471_097890337_097918415_097946696_097975171_098003832_098032669_098061673_098090835_098120144_098149592_098179168_098208863_098238668_098268572_098298566_098328640_098358785_098388991_098419248_098449545_098479874_098510224_098540586_098570951_098601310_098631654_098661974_098692262_098722509_098752705_098782841_098812909_098842899_098872801,
  98902606_098932305_098961889_098991351_099020680_099049869_099078910_099107794_099136515_099165065_099193436_099221623_099249619_099277420_099305022_099332420_099359611_099386590_099413356_099439906_099466236_099492345_099518229_099543886_099569314_099594512_099619478_099644211_099668709_099692972_099716997_099740784_099764333_099787641_099810709_099833536_099856121_099878464_099900566_099922427_099944047_099965427_099986567_100007467_100028127_100048546_100068724_100088661_100108355_100127807_100147015_100165981_100184702_100203178_100221410_100239395_100257134_100274627_100291873_100308871_100325622_100342128_100358387_100374403_100390175_100405706_100420995_100436045_100450856_100465430_100479767_100493868_100507735_100521367_100534767_100547935_100560872_100573579_100586055_100598303_100610321_100622111_100633672_100645005_100656112_100666991_100677645_100688075_100698280_100708262_100718022_100727560_100736876_100745971_100754845_100763498_100771930_100780142_100788133_100795905_100803458_100810791_100817906_100824802_100831480_100837941_100844186_100850215_100856030_100861633_100867026_100872212_100877192_100881969_100886547_100890926_100895111_100899104_100902907_100906523_100909955_100913205_100916276_100919172_100921894_100924445_100926828_100929046_100931100_100932993_100934728_100936306_100937730_100939002_100940125_100941102_100941935_100942626_100943178_100943592_100943870_100944014_100944025_100943904_100943652_100943271_100942761_100942124_100941361_100940471_100939456_100938316_100937052_100935665_100934154_100932520_100930765_100928889_100926893_100924779_100922548_100920200_100917737_100915161_100912471_100909670_100906757_100903734_100900600_100897358_100894008_100890549_100886984_100883312_100879533_100875648_100871656_100867559_100863356_100859047_100854632_100850112_100845488_100840759_100835926_100830990_100825950_100820808_100815563_100810216_100804766_100799213_100793559_100787802_100781943_100775984_100769923_100763761_100757499_100751136_100744675_100738115_100731456_100724702_100717852_100710908_100703872_100696748_100689536_100682239_100674861_100667402_100659867_100652257_100644575_100636825_100629008_100621129_100613189_100605192_100597140_100589038_100580886_100572689_100564449_100556169_100547851_100539498_100531114_100522702_100514264_100505804_100497325_100488830_100480322_100471803_100463277_100454747_100446215_100437683_100429154_100420630_100412115_100403610_100395118_100386641_100378181_100369740_100361321_100352926_100344556_100336214_100327902_100319622_100311378_100303171,
  100295004_100286880_100278800_100270768_100262785_100254854_100246976_100239154_100231389_100223684_100216040_100208460_100200943_100193492_100186108_100178792_100171544_100164367_100157260_100150224_100143260_100136368_100129551_100122807_100116138_100109545_100103027_100096585_100090220_100083932_100077720_100071585_100065527_100059546_100053641_100047814_100042063_100036389_100030792_100025270_100019824_100014454_100009160_100003941_099998797_099993729_099988737_099983822_099978983_099974222_099969537_099964931_099960403_099955954_099951584_099947293_099943081_099938950_099934898_099930927_099927037_099923227_099919498_099915849_099912281_099908793_099905384_099902056_099898806_099895637_099892546_099889535_099886603_099883749_099880974_099878276_099875657_099873114_099870648_099868257_099865942_099863702_099861536_099859443_099857423_099855474_099853596_099851789_099850050_099848379_099846776_099845239_099843767_099842360_099841017_099839738_099838522_099837367_099836274_099835242_099834269_099833356_099832501_099831703_099830962_099830277_099829646_099829069_099828545_099828072_099827650_099827276_099826950_099826670_099826434_099826242_099826092_099825983_099825913_099825881_099825886_099825927_099826001_099826109_099826248_099826417_099826614_099826839_099827090_099827366_099827665_099827986_099828328_099828690_099829070_099829467_099829881_099830309_099830751_099831206_099831673_099832152_099832642_099833142_099833653_099834174_099834704_099835243_099835791_099836349_099836915_099837490_099838074_099838666_099839267_099839876_099840494_099841121_099841756_099842399_099843050_099843709_099844376_099845052_099845735_099846426_099847126_099847833_099848550_099849275_099850008_099850750_099851501_099852262_099853031_099853809_099854597_099855394_099856200_099857016_099857842_099858678_099859523_099860377_099861242_099862116_099863000_099863894_099864798_099865712_099866637_099867572_099868519_099869476_099870446_099871427_099872420_099873425_099874442_099875472_099876515_099877570_099878638_099879719_099880812_099881918_099883037_099884167_099885310_099886463_099887628_099888804_099889989_099891185_099892390_099893605_099894828_099896060_099897300_099898547_099899801_099901062_099902329_099903601_099904879_099906161_099907447_099908737_099910029_099911324_099912622_099913920_099915219_099916519_099917818_099919116_099920414_099921710_099923004_099924297_099925588_099926876_099928162_099929445_099930725_099932003_099933277_099934548_099935816_099937080_099938341_099939598_099940851_099942100_099943345_099944585,
  99945820_099947051_099948275_099949495_100000000_100000000_100000000_100000000_100000000_100000000_100000000_100000000_100000000_100000000_100000000_100000000_100000000_100000000_100000000_100000000_100000000_100000000_100000000_100000000_100000000_100000000_100000000_100000000_100000000_100000000_100000000_100000000_100000000_100000000_100000000_100000000_100000000_100000000_100000000_100000000_100000000_100000000_100000000_100000000_100000000_100000000_100000000_100000000_100000000_100000000_100000000_100000000_100000000_100000000_100000000_100000000_100000000_100000000_100000000_100000000_100000000_100000000_100000000_100000000_100000000_100000000_100000000_100000000_100000000_100000000_100000000_100000000_100000000_100000000_100000000_100000000_100000000_100000000_100000000_100000000_100000000_100000000_100000000_100000000_100000000_100000000_100000000_100000000_100000000_100000000_100000000_100000000_100000000_100000000_100000000_100000000_100000000_100000000_100000000_100000000_100000000_100000000_100000000_100000000_100000000_100000000_100000000_100000000_100000000_100000000_100000000_100000000_100000000_100000000_100000000_100000000_100000000_100000000_100000000_100000000_100000000_100000000_100000000_100000000_100000000_100000000_100000000_100000000_100000000_100000000_100000000_100000000_100000000_100000000_100000000_100000000_100000000_100000000_100000000_100000000_100000000_100000000_100000000_100000000_100000000_100000000_100000000_100000000_100000000_100000000_100000000_100000000_100000000_100000000_100000000_100000000_100000000_100000000_100000000_100000000_100000000_100000000_100000000_100000000_100000000_100000000_100000000_100000000_100000000_100000000_100000000_100000000_100000000_100000000_100000000_100000000_100000000_100000000_100000000_100000000_100000000_100000000_100000000_100000000_100000000_100000000_100000000_100000000_100000000_100000000_100000000_100000000_100000000_100000000_100000000_100000000_100000000_100000000_100000000_100000000_100000000_100000000_100000000_100000000_100000000_100000000_100000000_100000000_100000000_100000000_100000000_100000000_100000000_100000000_100000000_100000000_100000000_100000000_100000000_100000000_100000000_100000000_100000000_100000000_100000000_100000000_100000000_100000000_100000000_100000000_100000000_100000000_100000000_100000000_100000000_100000000_100000000_100000000_100000000_100000000_100000000_100000000_100000000_100000000_100000000_100000000_100000000_100000000_100000000_100000000_100000000_100000000_100000000_100000000_100000000_100000000]

/-- `_sym20_table`, pmesh/_window_wavelets.h:1146-1914: 3076 entries. -/
def sym20Rows : List ℕ := [
  99798184_099794111_099790027_099785934_099781831_099777720_099773601_099769475_099765343_099761205_099757062_099752915_099748765_099744613_099740458_099736303_099732148_099727993_099723840_099719690_099715543_099711400_099707262_099703130_099699005_099694888_099690779_099686680_099682592_099678515_099674450_099670399_099666363_099662341_099658336_099654349_099650379_099646429_099642500_099638591_099634706_099630843_099627005_099623193_099619407_099615649_099611920_099608221_099604552_099600916_099597313_099593744_099590210_099586713_099583254_099579833_099576453_099573113_099569816_099566562_099563352_099560188_099557071_099554003_099550983_099548014_099545096_099542232_099539421_099536665_099533966_099531324_099528742_099526219_099523757_099521358_099519022_099516751_099514546_099512408_099510339_099508339_099506410_099504553_099502769_099501059_099499425_099497867_099496387_099494987_099493666_099492427_099491270_099490196_099489208_099488305_099487489_099486761_099486122_099485574_099485117_099484752_099484481_099484304_099484223_099484238_099484351_099484563_099484874_099485286_099485799_099486415_099487134_099487957_099488886_099489920_099491062_099492312_099493670_099495138_099496716_099498405_099500206_099502119_099504146_099506287_099508543_099510914_099513401_099516004_099518725_099521564_099524521_099527598_099530794_099534109_099537546_099541103_099544782_099548582_099552505_099556551_099560719_099565011_099569427_099573966_099578630_099583418_099588331_099593369_099598532_099603820_099609234_099614774_099620439_099626230_099632147_099638190_099644359_099650654_099657075_099663622_099670294_099677093_099684017_099691066_099698242_099705542_099712967_099720518_099728193_099735992_099743915_099751963_099760133_099768427_099776844_099785383_099794044_099802826_099811730_099820754_099829898_099839162_099848545_099858046_099867666_099877402_099887255_099897224_099907308_099917507_099927820_099938245_099948783_099959432_099970192_099981062_099992041_100003127_100014321_100025621_100037025_100048534_100060146_100071860_100083675_100095590_100107603_100119714_100131921_100144223_100156619_100169108_100181687_100194357_100207115_100219960_100232891_100245905_100259003_100272182_100285440_100298777_100312190_100325678_100339239_100352871_100366573_100380344_100394180_100408081_100422044_100436068_100450151_100464290_100478484_100492732_100507030_100521376_100535770_100550208_100564689_100579210_100593769_100608365_100622994_100637654_100652343_100667060_100681801_100696564_100711346_100726146_100740961_100755788,
  100770625_100785469_100800318_100815169_100830020_100844868_100859710_100874543_100889366_100904174_100918966_100933739_100948489_100963214_100977912_100992579_101007212_101021808_101036365_101050880_101065349_101079770_101094139_101108454_101122711_101136907_101151040_101165106_101179101_101193024_101206870_101220636_101234320_101247917_101261425_101274841_101288161_101301381_101314499_101327511_101340414_101353205_101365879_101378435_101390867_101403174_101415351_101427395_101439302_101451070_101462694_101474171_101485498_101496671_101507686_101518540_101529230_101539752_101550102_101560278_101570274_101580088_101589716_101599155_101608400_101617449_101626298_101634943_101643381_101651607_101659619_101667413_101674985_101682332_101689451_101696337_101702987_101709397_101715565_101721486_101727158_101732576_101737737_101742638_101747276_101751646_101755746_101759573_101763122_101766391_101769376_101772075_101774484_101776599_101778418_101779937_101781154_101782066_101782668_101782959_101782936_101782595_101781934_101780949_101779639_101778000_101776029_101773725_101771084_101768104_101764783_101761117_101757105_101752744_101748032_101742967_101737546_101731767_101725629_101719129_101712265_101705036_101697439_101689473_101681136_101672427_101663343_101653884_101644047_101633833_101623238_101612262_101600904_101589163_101577037_101564526_101551629_101538345_101524672_101510611_101496161_101481321_101466091_101450470_101434458_101418054_101401259_101384073_101366495_101348524_101330163_101311410_101292265_101272730_101252804_101232487_101211781_101190687_101169203_101147332_101125074_101102431_101079402_101055989_101032193_101008016_100983458_100958521_100933207_100907516_100881450_100855012_100828202_100801023_100773476_100745563_100717287_100688649_100659652_100630297_100600588_100570527_100540116_100509357_100478254_100446809_100415025_100382904_100350451_100317667_100284556_100251121_100217366_100183294_100148907_100114211_100079207_100043901_100008296_099972395_099936202_099899722_099862959_099825916_099788598_099751010_099713155_099675037_099636663_099598035_099559160_099520041_099480683_099441092_099401272_099361228_099320966_099280491_099239808_099198922_099157839_099116564_099075103_099033462_098991647_098949662_098907514_098865210_098822754_098780154_098737415_098694543_098651545_098608428_098565196_098521858_098478420_098434888_098391269_098347569_098303796_098259956_098216057_098172104_098128106_098084069_098040001_097995908_097951798_097907679_097863557_097819439_097775334_097731249_097687191_097643169,
  97599189_097555259_097511387_097467581_097423848_097380197_097336635_097293171_097249811_097206565_097163441_097120445_097077588_097034876_096992317_096949921_096907696_096865649_096823790_096782126_096740665_096699418_096658391_096617593_096577033_096536720_096496662_096456868_096417346_096378104_096339153_096300500_096262154_096224124_096186418_096149046_096112017_096075338_096039019_096003069_095967497_095932311_095897520_095863134_095829161_095795610_095762490_095729810_095697578_095665805_095634499_095603668_095573322_095543469_095514119_095485280_095456962_095429173_095401922_095375218_095349070_095323486_095298477_095274050_095250214_095226978_095204351_095182342_095160958_095140210_095120105_095100653_095081861_095063739_095046294_095029535_095013471_094998110_094983460_094969529_094956326_094943858_094932135_094921162_094910950_094901504_094892834_094884946_094877849_094871549_094866055_094861374_094857512_094854477_094852276_094850917_094850405_094850748_094851952_094854024_094856970_094860796_094865510_094871116_094877621_094885031_094893351_094902587_094912745_094923830_094935846_094948800_094962696_094977540_094993334_095010085_095027797_095046473_095066119_095086737_095108332_095130907_095154467_095179013_095204550_095231081_095258608_095287134_095316662_095347193_095378731_095411277_095444833_095479401_095514982_095551578_095589190_095627818_095667465_095708129_095749813_095792516_095836238_095880979_095926740_095973519_096021316_096070130_096119961_096170807_096222666_096275538_096329421_096384312_096440210_096497112_096555016_096613920_096673820_096734713_096796597_096859468_096923323_096988156_097053966_097120747_097188495_097257207_097326876_097397498_097469067_097541580_097615030_097689411_097764718_097840944_097918083_097996129_098075075_098154914_098235639_098317242_098399717_098483056_098567250_098652292_098738173_098824885_098912419_099000767_099089919_099179866_099270599_099362108_099454383_099547414_099641192_099735705_099830943_099926895_100023551_100120899_100218927_100317626_100416981_100516983_100617618_100718875_100820741_100923204_101026251_101129868_101234043_101338763_101444014_101549783_101656055_101762818_101870056_101977755_102085902_102194482_102303479_102412880_102522668_102632830_102743349_102854210_102965398_103076896_103188689_103300762_103413097_103525679_103638490_103751516_103864738_103978141_104091708_104205420_104319262_104433217_104547266_104661392_104775579_104889808_105004061_105118322_105232571_105346792_105460966_105575074_105689099_105803023_105916826_106030492,
  106144000_106257333_106370472_106483398_106596093_106708537_106820713_106932600_107044180_107155434_107266342_107376887_107487048_107596806_107706142_107815037_107923471_108031426_108138880_108245816_108352214_108458054_108563316_108667981_108772030_108875443_108978200_109080281_109181668_109282340_109382277_109481461_109579871_109677487_109774291_109870262_109965381_110059628_110152983_110245428_110336941_110427505_110517098_110605702_110693297_110779864_110865384_110949836_111033201_111115461_111196596_111276587_111355415_111433060_111509503_111584727_111658711_111731437_111802885_111873039_111941878_112009384_112075540_112140326_112203724_112265716_112326284_112385410_112443076_112499265_112553958_112607139_112658790_112708894_112757433_112804392_112849751_112893497_112935611_112976077_113014879_113052002_113087429_113121144_113153133_113183380_113211869_113238586_113263516_113286645_113307958_113327442_113345081_113360863_113374775_113386802_113396932_113405153_113411452_113415816_113418233_113418693_113417182_113413691_113408208_113400722_113391223_113379701_113366146_113350548_113332897_113313186_113291405_113267545_113241599_113213559_113183416_113151164_113116796_113080305_113041684_113000928_112958032_112912988_112865794_112816443_112764931_112711255_112655410_112597394_112537202_112474833_112410284_112343554_112274639_112203540_112130255_112054783_111977125_111897280_111815249_111731033_111644633_111556050_111465287_111372346_111277230_111179942_111080484_110978862_110875079_110769140_110661049_110550813_110438438_110323928_110207291_110088533_109967663_109844687_109719614_109592452_109463210_109331897_109198524_109063099_108925634_108786139_108644626_108501106_108355592_108208095_108058629_107907207_107753843_107598550_107441343_107282238_107121249_106958392_106793683_106627139_106458777_106288614_106116667_105942955_105767496_105590310_105411415_105230832_105048580_104864681_104679154_104492022_104303305_104113027_103921209_103727874_103533047_103336749_103139006_102939842_102739281_102537348_102334070_102129472_101923579_101716419_101508019_101298406_101087606_100875649_100662563_100448376_100233116_100016814_099799499_099581201_099361949_099141775_098920710_098698783_098476028_098252475_098028157_097803105_097577353_097350934_097123879_096896224_096668001_096439244_096209988_095980266_095750114_095519567_095288658_095057425_094825902_094594126_094362131_094129955_093897633_093665203_093432701_093200163_092967629_092735133_092502715_092270411_092038259_091806298_091574566_091343100_091111939_090881123,
  90650688_090420674_090191121_089962066_089733550_089505611_089278289_089051622_088825652_088600416_088375956_088152310_087929519_087707623_087486661_087266674_087047701_086829784_086612961_086397275_086182764_085969469_085757432_085546691_085337288_085129263_084922657_084717510_084513862_084311755_084111229_083912324_083715081_083519540_083325742_083133728_082943537_082755211_082568789_082384312_082201820_082021353_081842952_081666656_081492505_081320540_081150801_080983326_080818156_080655330_080494887_080336867_080181310_080028253_079877736_079729799_079584478_079441814_079301844_079164606_079030139_078898480_078769668_078643739_078520731_078400681_078283626_078169603_078058648_077950798_077846088_077744555_077646233_077551159_077459368_077370894_077285771_077204035_077125719_077050857_076979483_076911629_076847328_076786613_076729517_076676071_076626306_076580254_076537946_076499412_076464683_076433789_076406758_076383620_076364403_076349137_076337849_076330566_076327316_076328125_076333019_076342026_076355169_076372474_076393967_076419670_076449608_076483804_076522281_076565061_076612166_076663619_076719439_076779648_076844265_076913310_076986803_077064762_077147205_077234149_077325613_077421612_077522162_077627280_077736981_077851279_077970188_078093721_078221892_078354714_078492197_078634354_078781195_078932731_079088971_079249925_079415601_079586007_079761150_079941038_080125676_080315071_080509228_080708151_080911843_081120309_081333552_081551572_081774372_082001953_082234315_082471458_082713380_082960081_083211558_083467809_083728829_083994615_084265163_084540466_084820520_085105317_085394851_085689113_085988096_086291789_086600184_086913269_087231035_087553468_087880558_088212290_088548651_088889628_089235204_089585365_089940094_090299373_090663187_091031516_091404341_091781643_092163402_092549597_092940207_093335208_093734579_094138296_094546334_094958670_095375277_095796129_096221201_096650464_097083890_097521451_097963118_098408860_098858648_099312450_099770234_100231968_100697618_101167153_101640536_102117734_102598711_103083432_103571859_104063956_104559684_105059007_105561885_106068278_106578147_107091452_107608151_108128203_108651567_109178198_109708056_110241095_110777272_111316543_111858862_112404184_112952463_113503652_114057706_114614575_115174213_115736571_116301600_116869252_117439477_118012224_118587445_119165087_119745099_120327431_120912030_121498844_122087820_122678905_123272046_123867188_124464279_125063263_125664086_126266693_126871029_127477037_128084662_128693847_129304537_129916674,
  130530201_131145061_131761197_132378550_132997063_133616677_134237334_134858975_135481542_136104974_136729213_137354199_137979873_138606174_139233043_139860419_140488241_141116450_141744985_142373783_143002786_143631931_144261158_144890404_145519608_146148710_146777647_147406357_148034778_148662849_149290508_149917692_150544340_151170389_151795777_152420442_153044321_153667353_154289474_154910624_155530738_156149756_156767615_157384252_157999606_158613614_159226215_159837346_160446945_161054951_161661302_162265935_162868791_163469806_164068920_164666072_165261200_165854244_166445143_167033835_167620261_168204361_168786074_169365340_169942099_170516293_171087861_171656745_172222885_172786224_173346702_173904261_174458845_175010393_175558851_176104160_176646263_177185104_177720628_178252777_178781496_179306730_179828425_180346525_180860976_181371724_181878716_182381898_182881218_183376623_183868061_184355480_184838830_185318059_185793117_186263953_186730519_187192765_187650642_188104103_188553098_188997582_189437507_189872826_190303493_190729464_191150692_191567135_191978746_192385484_192787304_193184165_193576024_193962840_194344571_194721178_195092621_195458859_195819855_196175570_196525965_196871005_197210652_197544870_197873624_198196879_198514600_198826754_199133308_199434228_199729484_200019042_200302874_200580949_200853236_201119708_201380336_201635092_201883949_202126882_202363864_202594869_202819875_203038857_203251792_203458658_203659433_203854096_204042626_204225005_204401213_204571232_204735044_204892633_205043982_205189076_205327900_205460441_205586685_205706619_205820232_205927512_206028450_206123035_206211259_206293114_206368592_206437686_206500391_206556702_206606613_206650122_206687226_206717922_206742209_206760086_206771554_206776613_206775265_206767513_206753359_206732808_206705864_206672533_206632820_206586734_206534281_206475471_206410312_206338814_206260989_206176847_206086402_205989666_205886653_205777378_205661855_205540101_205412133_205277969_205137625_204991122_204838479_204679717_204514856_204343918_204166926_203983903_203794874_203599861_203398892_203191991_202979185_202760502_202535970_202305616_202069471_201827564_201579926_201326588_201067581_200802938_200532691_200256876_199975525_199688673_199396357_199098611_198795472_198486978_198173165_197854073_197529740_197200205_196865509_196525690_196180791_195830853_195475918_195116027_194751225_194381554_194007058_193627782_193243771_192855069_192461723_192063779_191661283_191254282_190842825_190426958_190006731_189582191_189153389_188720373,
  188283193_187841900_187396545_186947177_186493849_186036613_185575520_185110622_184641973_184169624_183693631_183214045_182730922_182244315_181754278_181260867_180764137_180264142_179760938_179254581_178745127_178232632_177717153_177198746_176677468_176153376_175626528_175096981_174564793_174030020_173492723_172952957_172410783_171866258_171319441_170770390_170219164_169665823_169110425_168553030_167993696_167432483_166869451_166304658_165738164_165170028_164600311_164029071_163456368_162882262_162306813_161730079_161152120_160572996_159992767_159411491_158829228_158246038_157661980_157077112_156491495_155905187_155318246_154730733_154142705_153554221_152965339_152376119_151786618_151196894_150607006_150017010_149426965_148836928_148246956_147657106_147067436_146478001_145888859_145300066_144711677_144123749_143536337_142949497_142363284_141777752_141192957_140608953_140025793_139443533_138862225_138281922_137702679_137124547_136547579_135971827_135397344_134824180_134252386_133682015_133113115_132545738_131979933_131415751_130853239_130292447_129733424_129176218_128620876_128067447_127515976_126966511_126419098_125873783_125330611_124789628_124250879_123714407_123180258_122648473_122119098_121592173_121067742_120545847_120026528_119509828_118995786_118484444_117975840_117470013_116967004_116466850_115969588_115475258_114983895_114495536_114010217_113527975_113048842_112572856_112100048_111630454_111164106_110701037_110241278_109784862_109331819_108882180_108435974_107993232_107553981_107118251_106686069_106257462_105832457_105411080_104993357_104579312_104168971_103762356_103359491_102960400_102565104_102173624_101785981_101402197_101022291_100646281_100274187_099906027_099541818_099181577_098825320_098473063_098124820_097780607_097440438_097104324_096772280_096444317_096120447_095800680_095485027_095173497_094866100_094562844_094263736_093968784_093677994_093391373_093108926_092830657_092556572_092286672_092020963_091759445_091502121_091248991_091000057_090755319_090514776_090278427_090046270_089818303_089594524_089374928_089159512_088948272_088741201_088538296_088339549_088144954_087954503_087768189_087586004_087407938_087233983_087064128_086898363_086736677_086579059_086425497_086275978_086130490_085989019_085851552_085718073_085588569_085463024_085341422_085223748_085109983_085000113_084894118_084791981_084693683_084599206_084508531_084421637_084338504_084259113_084183442_084111469_084043173_083978533_083917524_083860125_083806312_083756061_083709349_083666151_083626442_083590198_083557392_083527999_083501993,
  83479348_083460036_083444031_083431305_083421831_083415581_083412526_083412637_083415887_083422245_083431683_083444171_083459679_083478176_083499633_083524019_083551303_083581453_083614439_083650229_083688791_083730094_083774104_083820791_083870121_083922062_083976581_084033644_084093219_084155272_084219771_084286680_084355967_084427597_084501537_084577752_084656208_084736870_084819705_084904678_084991754_085080898_085172076_085265253_085360393_085457463_085556427_085657249_085759896_085864331_085970521_086078429_086188021_086299262_086412116_086526548_086642524_086760008_086878966_086999363_087121162_087244331_087368834_087494636_087621702_087749998_087879490_088010143_088141922_088274794_088408724_088543678_088679623_088816523_088954346_089093058_089232625_089373014_089514191_089656124_089798779_089942123_090086124_090230749_090375965_090521741_090668043_090814840_090962100_091109791_091257881_091406340_091555136_091704238_091853615_092003236_092153071_092303089_092453260_092603555_092753944_092904396_093054883_093205375_093355844_093506261_093656596_093806822_093956911_094106835_094256565_094406075_094555336_094704323_094853008_095001365_095149367_095296987_095444202_095590983_095737306_095883147_096028479_096173278_096317520_096461180_096604234_096746659_096888431_097029527_097169924_097309599_097448530_097586694_097724069_097860635_097996369_098131250_098265258_098398372_098530572_098661837_098792148_098921487_099049833_099177167_099303472_099428729_099552921_099676029_099798036_099918926_100038682_100157287_100274726_100390983_100506041_100619888_100732507_100843884_100954005_101062857_101170426_101276699_101381664_101485307_101587617_101688582_101788191_101886432_101983295_102078770_102172846_102265514_102356765_102446588_102534976_102621921_102707413_102791446_102874012_102955104_103034715_103112840_103189471_103264604_103338232_103410352_103480958_103550045_103617611_103683651_103748162_103811140_103872584_103932491_103990858_104047684_104102968_104156709_104208905_104259557_104308664_104356227_104402245_104446721_104489654_104531046_104570900_104609217_104645998_104681248_104714969_104747164_104777837_104806990_104834629_104860758_104885382_104908504_104930131_104950267_104968919_104986092_105001793_105016027_105028802_105040125_105050003_105058443_105065453_105071041_105075215_105077984_105079356_105079339_105077944_105075180_105071055_105065581_105058766_105050621_105041157_105030384_105018313_105004955_104990322_104974424_104957274_104938884_104919265_104898429_104876390_104853159_104828749_104803174,
  104776447_104748580_104719587_104689482_104658279_104625991_104592632_104558217_104522760_104486276_104448778_104410283_104370803_104330356_104288955_104246615_104203353_104159182_104114120_104068181_104021381_103973736_103925261_103875973_103825887_103775020_103723387_103671005_103617889_103564057_103509524_103454307_103398422_103341886_103284715_103226925_103168533_103109556_103050011_102989912_102929279_102868125_102806470_102744328_102681716_102618652_102555151_102491229_102426905_102362193_102297110_102231673_102165897_102099800_102033397_101966705_101899739_101832515_101765050_101697360_101629460_101561366_101493093_101424658_101356076_101287362_101218532_101149600_101080583_101011494_100942350_100873164_100803952_100734729_100665508_100596305_100527134_100458009_100388944_100319953_100251050_100182249_100113564_100045009_099976596_099908339_099840252_099772347_099704638_099637137_099569858_099502812_099436013_099369472_099303202_099237216_099171525_099106141_099041076_098976341_098911948_098847909_098784235_098720936_098658024_098595509_098533403_098471715_098410457_098349639_098289270_098229361_098169922_098110962_098052491_097994518_097937053_097880106_097823684_097767797_097712454_097657663_097603433_097549772_097496688_097444190_097392285_097340981_097290285_097240206_097190750_097141925_097093738_097046195_096999303_096953069_096907499_096862600_096818378_096774839_096731988_096689831_096648374_096607622_096567581_096528255_096489649_096451768_096414617_096378200_096342521_096307585_096273395_096239955_096207269_096175341_096144172_096113768_096084130_096055262_096027166_095999844_095973300_095947535_095922550_095898349_095874933_095852303_095830460_095809407_095789143_095769670_095750989_095733099_095716003_095699699_095684188_095669471_095655546_095642414_095630074_095618526_095607768_095597800_095588621_095580230_095572625_095565805_095559768_095554513_095550037_095546339_095543416_095541266_095539887_095539276_095539431_095540348_095542024_095544457_095547643_095551579_095556262_095561687_095567851_095574751_095582381_095590739_095599819_095609618_095620131_095631354_095643281_095655908_095669230_095683242_095697939_095713316_095729367_095746087_095763470_095781510_095800203_095819541_095839519_095860132_095881372_095903233_095925710_095948796_095972484_095996768_096021641_096047096_096073126_096099725_096126885_096154599_096182861_096211662_096240995_096270854_096301230_096332116_096363504_096395386_096427755_096460603_096493922_096527704_096561940_096596623_096631744_096667296_096703269_096739656,
  96776448_096813636_096851212_096889168_096927495_096966183_097005225_097044612_097084334_097124384_097164751_097205428_097246406_097287674_097329226_097371050_097413139_097455484_097498075_097540904_097583960_097627237_097670723_097714411_097758290_097802353_097846590_097890992_097935550_097980255_098025098_098070070_098115162_098160365_098205670_098251068_098296551_098342110_098387735_098433418_098479150_098524923_098570728_098616556_098662399_098708248_098754095_098799931_098845748_098891537_098937292_098983002_099028660_099074258_099119788_099165243_099210613_099255891_099301070_099346142_099391100_099435935_099480640_099525209_099569633_099613905_099658019_099701967_099745743_099789339_099832749_099875966_099918983_099961793_100004392_100046771_100088925_100130847_100172532_100213973_100255165_100296101_100336776_100377184_100417319_100457177_100496751_100536037_100575029_100613722_100652110_100690190_100727955_100765402_100802526_100839321_100875784_100911909_100947694_100983132_101018221_101052956_101087333_101121348_101154998_101188278_101221186_101253716_101285867_101317634_101349015_101380006_101410604_101440805_101470608_101500010_101529006_101557596_101585776_101613544_101640897_101667833_101694350_101720446_101746119_101771367_101796187_101820578_101844539_101868068_101891163_101913822_101936046_101957831_101979177_102000083_102020548_102040571_102060150_102079286_102097978_102116224_102134025_102151379_102168287_102184749_102200763_102216330_102231450_102246123_102260349_102274128_102287460_102300346_102312786_102324781_102336331_102347436_102358098_102368318_102378095_102387432_102396329_102404787_102412807_102420391_102427539_102434254_102440537_102446388_102451811_102456805_102461374_102465518_102469240_102472541_102475423_102477889_102479940_102481578_102482806_102483625_102484039_102484048_102483657_102482866_102481679_102480098_102478125_102475763_102473016_102469884_102466372_102462482_102458217_102453579_102448571_102443198_102437460_102431362_102424907_102418097_102410936_102403427_102395573_102387378_102378844_102369975_102360775_102351246_102341393_102331218_102320726_102309919_102298801_102287376_102275648_102263619_102251295_102238678_102225772_102212581_102199108_102185359_102171335_102157042_102142483_102127662_102112583_102097250_102081667_102065838_102049767_102033458_102016915_102000142_101983143_101965923_101948485_101930834_101912974_101894909_101876643_101858181_101839527_101820685_101801659_101782454_101763074_101743524_101723807_101703928_101683891_101663702_101643363_101622880,
  101602257_101581499_101560609_101539593_101518455_101497199_101475829_101454350_101432767_101411084_101389306_101367436_101345480_101323442_101301326_101279136_101256878_101234555_101212172_101189734_101167244_101144707_101122128_101099510_101076859_101054178_101031471_101008744_100986000_100963243_100940478_100917709_100894940_100872175_100849419_100826674_100803946_100781239_100758556_100735901_100713279_100690693_100668147_100645645_100623190_100600787_100578440_100556151_100533925_100511766_100489676_100467659_100445720_100423861_100402085_100380397_100358799_100337296_100315889_100294583_100273380_100252284_100231298_100210424_100189666_100169027_100148510_100128117_100107851_100087716_100067713_100047845_100028116_100008527_099989082_099969782_099950630_099931629_099912780_099894086_099875550_099857173_099838958_099820907_099803021_099785303_099767755_099750378_099733175_099716147_099699297_099682625_099666133_099649824_099633698_099617757_099602003_099586438_099571061_099555876_099540883_099526083_099511477_099497068_099482855_099468841_099455025_099441410_099427995_099414782_099401772_099388965_099376363_099363965_099351773_099339787_099328008_099316436_099305071_099293915_099282968_099272229_099261700_099251380_099241269_099231369_099221678_099212198_099202927_099193867_099185017_099176377_099167946_099159725_099151714_099143912_099136318_099128934_099121757_099114789_099108028_099101474_099095126_099088984_099083047_099077315_099071787_099066463_099061341_099056421_099051702_099047183_099042864_099038743_099034820_099031094_099027563_099024227_099021085_099018135_099015377_099012810_099010431_099008241_099006238_099004420_099002787_099001337_099000069_098998982_098998074_098997344_098996790_098996412_098996207_098996175_098996314_098996622_098997098_098997740_098998548_098999519_099000652_099001945_099003398_099005007_099006772_099008692_099010763_099012986_099015358_099017878_099020543_099023353_099026306_099029400_099032633_099036004_099039512_099043153_099046927_099050833_099054868_099059030_099063318_099067731_099072266_099076922_099081697_099086589_099091597_099096719_099101953_099107297_099112750_099118310_099123975_099129744_099135614_099141584_099147652_099153817_099160076_099166429_099172872_099179405_099186025_099192731_099199521_099206393_099213346_099220378_099227486_099234670_099241927_099249256_099256655_099264121_099271655_099279252_099286913_099294634_099302415_099310253_099318147_099326095_099334095_099342146_099350245_099358392_099366583_099374818_099383095_099391411_099399766_099408157,
  99416583_099425043_099433533_099442053_099450600_099459174_099467772_099476393_099485035_099493696_099502375_099511070_099519779_099528501_099537233_099545975_099554725_099563480_099572240_099581003_099589766_099598530_099607291_099616049_099624802_099633548_099642286_099651014_099659731_099668435_099677125_099685799_099694456_099703094_099711712_099720309_099728883_099737433_099745957_099754455_099762924_099771363_099779772_099788148_099796491_099804799_099813071_099821305_099829502_099837658_099845774_099853848_099861879_099869865_099877806_099885701_099893548_099901347_099909095_099916793_099924440_099932033_099939573_099947059_099954489_099961862_099969178_099976436_099983634_099990773_099997850_100004866_100011820_100018710_100025537_100032298_100038995_100045625_100052188_100058684_100065111_100071470_100077760_100083979_100090128_100096206_100102212_100108146_100114007_100119795_100125510_100131150_100136716_100142207_100147623_100152963_100158227_100163414_100168525_100173559_100178515_100183394_100188194_100192917_100197561_100202127_100206614_100211022_100215351_100219601_100223772_100227863_100231875_100235807_100239660_100243432_100247126_100250740_100254274_100257728_100261104_100264399_100267616_100270753_100273811_100276790_100279691_100282513_100285256_100287922_100290509_100293019_100295452_100297807_100300085_100302287_100304413_100306463_100308437_100310336_100312160_100313910_100315586_100317188_100318718_100320174_100321558_100322871_100324112_100325283_100326383_100327413_100328374_100329267_100330091_100330847_100331537_100332159_100332716_100333208_100333635_100333997_100334297_100334533_100334707_100334819_100334870_100334861_100334792_100334663_100334477_100334232_100333931_100333573_100333159_100332690_100332167_100331590_100330960_100330278_100329544_100328759_100327923_100327039_100326105_100325123_100324094_100323017_100321895_100320727_100319515_100318259_100316959_100315617_100314233_100312807_100311341_100309835_100308290_100306707_100305086_100303427_100301733_100300002_100298236_100296436_100294603_100292736_100290836_100288905_100286943_100284951_100282929_100280877_100278798_100276690_100274555_100272394_100270207_100267995_100265758_100263497_100261213_100258906_100256577_100254227_100251856_100249465_100247054_100244624_100242176_100239710_100237227_100234727_100232212_100229681_100227136_100224576_100222002_100219416_100216817_100214207_100211585_100208953_100206310_100203658_100200996_100198326_100195649_100192964_100190272_100187574_100184869_100182160_100179446_100176728,
  100174006_100171281_100168554_100165824_100000000_100000000_100000000_100000000_100000000_100000000_100000000_100000000_100000000_100000000_100000000_100000000_100000000_100000000_100000000_100000000_100000000_100000000_100000000_100000000_100000000_100000000_100000000_100000000_100000000_100000000_100000000_100000000_100000000_100000000_100000000_100000000_100000000_100000000_100000000_100000000_100000000_100000000_100000000_100000000_100000000_100000000_100000000_100000000_100000000_100000000_100000000_100000000_100000000_100000000_100000000_100000000_100000000_100000000_100000000_100000000_100000000_100000000_100000000_100000000_100000000_100000000_100000000_100000000_100000000_100000000_100000000_100000000_100000000_100000000_100000000_100000000_100000000_100000000_100000000_100000000_100000000_100000000_100000000_100000000_100000000_100000000_100000000_100000000_100000000_100000000_100000000_100000000_100000000_100000000_100000000_100000000_100000000_100000000_100000000_100000000_100000000_100000000_100000000_100000000_100000000_100000000_100000000_100000000_100000000_100000000_100000000_100000000_100000000_100000000_100000000_100000000_100000000_100000000_100000000_100000000_100000000_100000000_100000000_100000000_100000000_100000000_100000000_100000000_100000000_100000000_100000000_100000000_100000000_100000000_100000000_100000000_100000000_100000000_100000000_100000000_100000000_100000000_100000000_100000000_100000000_100000000_100000000_100000000_100000000_100000000_100000000_100000000_100000000_100000000_100000000_100000000_100000000_100000000_100000000_100000000_100000000_100000000_100000000_100000000_100000000_100000000_100000000_100000000_100000000_100000000_100000000_100000000_100000000_100000000_100000000_100000000_100000000_100000000_100000000_100000000_100000000_100000000_100000000_100000000_100000000_100000000_100000000_100000000_100000000_100000000_100000000_100000000_100000000_100000000_100000000_100000000_100000000_100000000_100000000_100000000_100000000_100000000_100000000_100000000_100000000_100000000_100000000_100000000_100000000_100000000_100000000_100000000_100000000_100000000_100000000_100000000_100000000_100000000_100000000_100000000_100000000_100000000_100000000_100000000_100000000_100000000_100000000_100000000_100000000_100000000_100000000_100000000_100000000_100000000_100000000_100000000_100000000_100000000_100000000_100000000_100000000_100000000_100000000_100000000_100000000_100000000_100000000_100000000_100000000_100000000_100000000_100000000_100000000_100000000_100000000_100000000]

/-- `_db6_table`, pmesh/_window_wavelets.h:1939-2387: 1796 entries. -/
def db6Rows : List ℕ := [
  100200422_100216888_100234116_100252100_100270881_100290474_100310864_100332057_100354064_100376897_100400584_100425127_100450501_100476688_100503687_100531523_100560277_100590017_100620794_100652657_100685625_100719739_100755074_100791658_100829458_100868456_100908632_100949999_100992640_101036605_101081898_101128522_101176443_101225635_101276101_101327826_101380791_101434970_101490317_101546832_101604576_101663594_101723917_101785554_101848456_101912600_101978008_102044685_102112649_102181913_102252468_102324325_102397512_102472054_102547975_102625276_102703914_102783856_102865086_102947592_103031394_103116494_103202868_103290544_103379603_103470122_103562182_103655839_103751090_103847967_103946550_104046875_104148947_104252778_104358363_104465737_104574999_104686220_104799441_104914673_105031859_105150956_105271954_105394838_105519618_105646285_105774782_105905126_106037419_106171742_106308173_106446749_106587412_106730150_106875015_107022008_107171097_107322252_107475408_107630545_107787708_107946909_108108122_108271335_108436520_108603656_108772748_108943775_109116687_109291447_109468016_109646400_109826682_110008927_110193180_110379479_110567807_110758183_110950674_111145284_111341946_111540610_111741216_111943747_112148278_112354840_112563406_112773983_112986575_113201195_113417886_113636661_113857486_114080349_114305252_114532204_114761247_114992410_115225704_115461149_115698758_115938549_116180555_116424771_116671144_116919628_117170185_117422788_117677455_117934177_118192910_118453647_118716415_118981236_119248138_119517123_119788139_120061158_120336183_120613242_120892430_121173831_121457500_121743501_122031870_122322669_122616002_122911909_123210354_123511320_123814796_124120812_124429486_124740899_125055070_125372024_125691741_126014211_126339465_126667510_126998348_127331976_127668369_128007560_128349666_128694781_129042986_129394336_129748813_130106436_130467281_130831349_131198576_131568901_131942244_132318571_132697937_133080344_133465735_133854099_134245448_134639795_135037176_135437580_135840920_136247142_136656221_137068182_137483153_137901239_138322505_138747017_139174793_139605886_140040417_140478406_140919762_141364416_141812305_142263420_142717890_143175779_143637062_144101646_144569275_145039715_145512799_145988338_146466205_146946210_147428052_147911598_148396923_148884047_149372969_149863581_150355525_150848553_151342573_151837494_152333362_152830186_153327867_153826362_154325631_154825654_155326478_155827978_156329780_156831571_157333076_157834095_158334659_158834678_159333889_159832262,
  160329973_160827184_161324108_161820830_162317149_162813027_163308619_163803923_164298860_164793352_165287248_165780542_166273474_166766178_167258685_167750878_168242303_168732581_169221460_169708679_170194138_170677614_171158671_171637192_172113421_172587522_173059649_173529769_173997415_174462329_174924532_175384016_175840952_176295465_176747507_177197156_177644560_178089874_178533331_178974942_179414374_179851392_180285846_180717684_181147155_181574367_181999198_182421631_182841631_183259179_183674361_184087159_184497419_184905039_185309938_185712130_186111819_186509158_186904223_187297078_187687676_188076032_188462275_188846279_189227610_189605871_189980666_190351705_190719003_191082389_191441441_191795983_192146025_192491544_192832579_193168973_193500203_193825906_194145902_194460134_194768904_195072435_195370771_195664000_195952087_196235102_196513337_196786716_197054718_197316922_197572945_197822595_198066181_198303766_198535080_198760161_198979231_199192520_199400412_199603075_199800287_199992037_200178531_200359870_200536203_200707647_200874193_201035985_201193358_201346580_201495883_201641262_201782280_201918595_202049991_202176292_202297598_202413833_202524628_202630005_202730390_202826132_202917601_203004933_203087735_203165869_203239533_203308711_203373364_203433420_203488619_203538904_203584499_203625492_203661866_203693587_203720455_203742331_203759193_203770956_203777525_203778797_203774604_203765003_203750364_203730999_203707176_203679088_203646667_203610004_203569420_203524980_203476519_203423913_203366994_203305768_203240607_203171711_203099077_203022566_202941666_202855933_202765094_202668819_202566900_202459004_202344560_202223371_202095693_201961668_201821387_201674725_201521022_201359862_201191168_201014830_200830972_200639657_200440725_200234151_200019969_199798223_199569067_199332338_199087410_198833767_198570992_198298795_198017297_197726406_197425714_197115243_196795420_196466636_196129379_195783896_195429904_195067425_194696848_194318265_193931622_193536872_193133830_192722586_192303695_191877513_191444203_191003661_190555181_190098185_189632342_189157298_188672985_188179123_187675044_187160662_186636555_186103155_185560875_185009795_184449202_183878768_183298679_182709117_182110670_181503839_180888804_180265959_179635777_178998783_178355709_177706812_177051661_176390015_175721793_175047143_174366876_173681497_172991040_172295704_171595569_170890759_170181652_169468421_168751019_168029476_167303805_166574295_165841722_165106738_164369843_163631473_162891718_162150858_161409481_160667602,
  159924605_159179944_158433036_157683567_156931911_156178032_155421361_154661830_153899730_153135296_152368919_151600575_150829486_150055205_149277653_148497055_147714452_146930706_146146305_145361821_144577509_143793888_143011981_142232004_141453205_140675053_139897084_139119280_138342725_137567973_136794845_136023365_135253273_134484398_133716990_132950948_132185844_131421336_130657010_129892869_129129649_128367871_127607817_126849636_126092925_125337551_124583838_123831806_123081340_122332339_121584524_120837852_120092662_119349118_118607229_117866955_117128009_116390180_115653429_114917648_114182765_113448675_112715156_111982459_111251491_110523062_109797913_109076632_108359255_107646173_106938273_106235907_105538950_104847372_104161059_103480295_102806161_102139386_101480269_100828932_100184828_099547565_098917121_098293347_097676269_097065736_096461206_095862840_095271684_094688578_094114269_093549143_092992639_092444663_091905772_091375819_090854143_090340090_089832728_089331573_088837013_088348945_087866726_087390055_086918670_086452340_085991093_085534557_085081783_084632045_084184797_083739993_083298574_082861269_082428462_082000493_081577132_081158533_080745502_080337914_079934637_079534739_079137270_078741820_078349241_077959767_077572825_077188416_076806722_076427982_076052860_075681520_075313364_074948172_074586060_074227095_073871654_073519988_073172052_072828021_072488224_072152952_071822573_071496902_071174897_070855679_070538540_070222924_069908918_069596203_069283858_068971677_068660144_068349609_068040517_067732833_067425511_067117983_066810269_066502640_066196240_065892044_065590573_065292537_064998450_064709081_064425726_064148790_063877546_063611560_063350553_063094744_062845620_062604086_062370222_062144237_061925867_061714981_061511961_061316849_061129482_060949709_060777177_060612224_060456242_060310363_060175474_060052204_059940286_059839918_059752009_059676441_059612098_059557960_059512810_059475984_059448068_059428921_059417514_059413558_059417180_059428467_059447826_059474984_059508524_059547512_059591528_059640749_059696787_059760946_059833927_059916502_060008795_060111425_060225915_060352405_060489430_060635876_060790694_060953619_061126277_061309381_061502403_061705161_061916982_062137350_062366468_062603939_062848809_063100267_063357388_063619936_063888898_064164903_064448170_064738704_065035593_065338373_065647336_065962236_066282550_066607781_066937145_067270256_067607399_067948541_068293349_068641460_068992138_069344769_069699019_070054412_070410459_070766642_071122291_071477463,
  71833251_072190585_072550261_072912845_073278056_073646155_074018181_074394312_074773951_075156658_075541861_075929615_076321224_076717432_077118296_077523612_077932163_078342963_078755604_079169460_079584141_079998997_080412789_080825344_081237853_081651184_082066045_082482595_082899548_083316322_083733334_084150508_084567816_084985162_085401936_085818058_086234129_086650471_087067253_087484370_087901005_088316566_088730815_089143483_089554624_089964117_090371458_090776620_091180071_091582187_091983388_092383853_092783186_093181295_093578480_093974758_094370032_094764205_095157005_095548420_095938849_096328508_096717445_097105405_097491500_097874964_098255254_098631817_099004413_099372560_099735360_100092481_100444219_100790722_101132120_101468192_101797911_102120620_102436151_102744342_103045453_103339637_103626707_103906665_104179551_104445454_104704678_104957016_105201538_105437489_105664254_105881441_106089338_106287893_106476549_106655549_106825917_106988624_107144788_107295124_107439394_107577937_107711797_107841418_107966875_108088300_108205599_108319232_108430616_108540769_108650292_108759313_108866815_108972040_109074728_109174567_109271766_109366148_109456816_109544012_109629315_109714022_109799379_109886007_109972987_110060162_110148402_110237708_110327627_110417676_110506878_110594924_110682627_110770213_110857330_110943868_111029510_111114059_111197710_111280250_111361005_111439470_111515191_111588452_111660798_111733523_111807587_111883813_111962190_112043254_112128408_112217945_112311029_112407051_112505323_112605862_112710226_112819241_112932798_113050619_113171392_113294025_113418082_113542776_113667377_113790931_113911907_114029876_114145909_114260677_114374583_114487459_114597585_114703958_114806632_114905385_115000418_115091800_115178992_115261913_115340870_115416078_115487879_115555897_115618560_115674599_115723075_115763280_115795432_115819262_115833721_115839018_115836668_115828044_115814690_115797515_115775914_115750176_115721714_115690952_115657679_115621770_115582732_115540941_115498289_115456018_115414663_115374068_115332324_115287909_115240069_115187927_115131338_115069579_115000831_114924993_114843985_114759278_114672235_114583266_114490437_114392953_114291559_114186332_114077593_113965510_113849399_113729391_113606577_113481679_113355276_113227419_113096953_112963093_112825588_112684213_112539386_112391185_112239015_112083052_111924213_111763292_111601204_111438447_111274577_111109649_110944324_110778857_110613400_110448078_110282723_110117568_109953450_109790941_109630390_109471687,
  109313771_109155774_108997157_108837379_108676383_108513750_108348442_108180255_108009904_107837890_107664704_107490316_107313520_107133650_106950764_106764917_106576772_106386838_106195129_106001943_105807648_105612681_105417780_105222957_105027187_104829704_104629945_104427670_104223602_104017989_103810357_103600841_103389936_103178127_102966195_102754485_102542568_102330412_102118384_101906710_101695787_101485931_101277174_101069814_100864418_100661458_100461398_100264288_100069460_099876403_099684799_099494412_099305485_099117956_098931285_098745532_098561366_098379334_098200042_098023714_097849746_097677932_097508568_097341769_097177813_097016900_096858917_096704016_096552627_096405076_096261689_096122573_095987406_095855991_095728300_095604337_095484368_095368523_095256679_095148989_095045857_094947648_094854784_094767529_094685809_094609729_094539603_094475609_094417889_094366577_094321696_094283413_094252107_094228062_094211486_094202176_094199237_094201875_094209450_094221383_094237539_094257453_094280162_094305322_094333237_094364059_094397952_094434650_094472968_094512122_094551859_094592035_094633135_094675492_094719020_094763810_094809855_094857282_094906570_094957474_095008784_095059514_095108803_095156136_095201955_095246219_095288192_095327904_095365981_095403019_095439879_095476939_095513616_095549857_095586206_095622800_095659679_095696854_095734051_095771434_095809828_095849786_095891626_095935135_095979016_096022198_096063989_096103717_096141298_096176232_096207311_096234324_096258165_096279493_096298966_096316649_096331224_096342035_096349301_096353165_096354381_096353550_096350721_096346326_096340998_096335400_096330473_096326436_096322415_096317840_096312414_096306153_096300060_096294673_096289800_096285575_096282073_096279410_096278060_096278153_096279393_096281648_096284855_096289251_096295699_096304895_096317285_096333282_096352929_096376474_096404542_096436958_096472603_096510481_096549582_096589240_096629737_096670780_096711307_096750999_096790105_096828775_096867355_096905595_096942127_096976073_097007110_097035300_097061815_097087578_097112970_097138507_097164315_097190858_097219273_097249580_097280434_097310800_097339753_097366966_097393638_097420225_097446159_097471467_097496234_097520619_097545307_097570412_097595247_097619487_097643067_097666078_097689215_097712973_097737479_097762988_097789618_097817588_097847400_097878994_097911596_097944573_097977342_098009548_098041508_098073157_098103900_098133660_098162749_098191423_098220097_098248799_098276827_098303823_098329808_098354862,
  98379510_098404156_098428892_098453976_098479654_098506243_098534281_098563875_098594544_098625961_098657903_098690349_098723860_098758718_098794797_098832146_098870766_098910689_098952153_098995199_099039623_099085315_099132199_099180353_099230193_099282038_099336068_099392445_099451138_099512217_099575953_099642226_099710472_099780184_099850840_099922086_099994022_100066472_100138897_100211095_100283109_100354941_100426688_100498170_100568691_100637779_100705208_100770924_100835377_100898898_100961571_101023535_101084750_101145328_101205680_101265713_101324714_101382108_101437365_101490223_101541103_101590088_101636799_101681243_101723633_101764193_101803362_101841289_101877618_101912255_101945362_101977002_102007341_102036491_102064386_102091137_102117049_102142358_102167286_102191739_102215087_102236809_102256526_102273918_102289028_102301664_102311267_102317746_102321484_102322768_102321926_102318985_102313328_102304645_102293019_102278536_102261615_102242595_102221549_102198715_102174388_102148900_102122747_102096055_102068418_102039575_102009383_101977871_101945573_101912786_101879444_101845628_101811369_101776721_101741928_101707061_101671998_101636686_101601094_101565354_101529932_101495202_101461421_101428813_101397401_101367317_101338897_101312094_101286432_101261489_101236823_101212168_101187709_101163361_101138685_101113574_101088161_101062544_101036918_101011207_100984832_100957432_100928895_100899293_100869219_100839148_100809313_100780001_100751309_100723495_100697134_100672288_100648392_100625025_100601812_100578656_100556168_100534615_100513795_100493688_100474167_100455153_100436826_100419126_100401729_100384404_100366932_100349294_100331865_100314905_100298508_100282740_100267416_100252477_100238097_100224236_100210680_100197241_100183669_100169848_100155925_100141915_100127682_100113155_100098221_100082794_100066879_100050392_100033145_100014991_099995795_099975627_099954893_099933941_099913039_099892419_099872087_099852204_099833168_099815090_099797789_099781150_099765038_099749514_099735056_099721953_099710254_099699961_099690799_099682561_099675221_099668670_099662830_099657565_099652588_099647918_099643990_099641140_099639642_099639620_099640783_099643043_099646611_099651447_099657372_099664205_099671636_099679537_099688098_099697343_099707135_099717393_099727965_099738731_099749688_099760722_099771605_099782148_099792166_099801656_099810928_099820227_099829712_099839505_099849517_099859793_099870590_099881894_099893425_099904953_099916224_099927151_099938018_099948930_099959769_099970514,
  99981101_099991495_100001800_100011994_100021911_100031447_100040517_100049110_100057381_100065435_100073299_100081005_100088505_100095795_100102964_100109967_100116611_100122731_100128154_100132768_100136627_100139693_100141812_100142931_100143057_100142192_100140379_100137580_100133614_100128363_100121781_100113914_100105024_100095329_100084976_100074117_100062810_100051190_100039533_100027921_100016213_100004324_099992178_099979822_099967581_099955655_099944072_099932861_099921908_099911136_099900586_099890235_099880045_099869965_099859869_099849810_099840098_099830979_099822652_099815241_099808633_099802837_099798036_099794202_099791122_099788598_099786371_099784308_099782540_099781052_099779651_099778277_099776913_099775545_099774234_099772914_099771315_099769251_099766615_099763437_099760041_099756686_099753524_099750703_099748227_099746205_099744937_099744445_099744443_099744709_099745028_099745344_099745980_099747078_099748533_099750336_099752408_099754704_099757317_099760217_099763237_099766260_099769171_099771961_099774830_099777915_099781272_099784937_099788820_099792895_099797260_099801892_099806665_099811470_099816167_099820689_099825115_099829452_099833616_099837570_099841272_099844686_099847832_099850669_099853088_099855008_099856367_099857190_099857659_099857925_099858094_099858265_099858440_099858688_099859185_099859974_099860954_099862060_099863220_099864450_099865956_099867859_099870166_099872873_099875868_099879063_099882455_099885996_099889641_099893324_099896924_099900445_099904069_099907934_099912148_099916759_099921647_099926774_099932227_099937993_099944007_099950201_099956455_099962726_099969095_099975582_099982141_099988745_099995332_100001855_100008314_100014669_100020843_100026771_100032383_100037684_100042793_100047807_100052793_100057801_100062799_100067807_100072924_100078153_100083398_100088582_100093619_100098485_100103290_100108082_100112827_100117517_100122116_100126600_100130998_100135297_100139439_100143383_100147086_100150543_100153821_100156967_100159999_100162931_100165729_100168384_100170929_100173353_100175606_100177645_100179414_100180886_100182087_100183017_100183640_100183942_100183912_100183542_100182840_100181795_100180361_100178509_100176218_100173503_100170441_100167097_100163517_100159747_100155795_100151698_100147533_100143323_100139033_100134641_100130127_100125503_100120863_100116263_100111716_100107228_100102764_100098299_100093842_100089386_100084921_100080433_100075884_100071287_100066732_100062287_100058010_100053936_100050030_100046291_100042772_100039467,
  100036330_100033314_100030357_100027428_100000000_100000000_100000000_100000000_100000000_100000000_100000000_100000000_100000000_100000000_100000000_100000000_100000000_100000000_100000000_100000000_100000000_100000000_100000000_100000000_100000000_100000000_100000000_100000000_100000000_100000000_100000000_100000000_100000000_100000000_100000000_100000000_100000000_100000000_100000000_100000000_100000000_100000000_100000000_100000000_100000000_100000000_100000000_100000000_100000000_100000000_100000000_100000000_100000000_100000000_100000000_100000000_100000000_100000000_100000000_100000000_100000000_100000000_100000000_100000000_100000000_100000000_100000000_100000000_100000000_100000000_100000000_100000000_100000000_100000000_100000000_100000000_100000000_100000000_100000000_100000000_100000000_100000000_100000000_100000000_100000000_100000000_100000000_100000000_100000000_100000000_100000000_100000000_100000000_100000000_100000000_100000000_100000000_100000000_100000000_100000000_100000000_100000000_100000000_100000000_100000000_100000000_100000000_100000000_100000000_100000000_100000000_100000000_100000000_100000000_100000000_100000000_100000000_100000000_100000000_100000000_100000000_100000000_100000000_100000000_100000000_100000000_100000000_100000000_100000000_100000000_100000000_100000000_100000000_100000000_100000000_100000000_100000000_100000000_100000000_100000000_100000000_100000000_100000000_100000000_100000000_100000000_100000000_100000000_100000000_100000000_100000000_100000000_100000000_100000000_100000000_100000000_100000000_100000000_100000000_100000000_100000000_100000000_100000000_100000000_100000000_100000000_100000000_100000000_100000000_100000000_100000000_100000000_100000000_100000000_100000000_100000000_100000000_100000000_100000000_100000000_100000000_100000000_100000000_100000000_100000000_100000000_100000000_100000000_100000000_100000000_100000000_100000000_100000000_100000000_100000000_100000000_100000000_100000000_100000000_100000000_100000000_100000000_100000000_100000000_100000000_100000000_100000000_100000000_100000000_100000000_100000000_100000000_100000000_100000000_100000000_100000000_100000000_100000000_100000000_100000000_100000000_100000000_100000000_100000000_100000000_100000000_100000000_100000000_100000000_100000000_100000000_100000000_100000000_100000000_100000000_100000000_100000000_100000000_100000000_100000000_100000000_100000000_100000000_100000000_100000000_100000000_100000000_100000000_100000000_100000000_100000000_100000000_100000000_100000000_100000000_100000000]

/-- `_db12_table`, pmesh/_window_wavelets.h:2412-3052: 2564 entries. -/
def db12Rows : List ℕ := [
  100204388_100210116_100215975_100221969_100228098_100234367_100240777_100247332_100254032_100260881_100267882_100275037_100282348_100289819_100297452_100305249_100313215_100321350_100329659_100338144_100346807_100355653_100364683_100373902_100383311_100392914_100402715_100412716_100422920_100433331_100443953_100454787_100465839_100477110_100488605_100500327_100512280_100524467_100536892_100549558_100562469_100575629_100589041_100602710_100616639_100630833_100645294_100660027_100675037_100690326_100705900_100721763_100737918_100754370_100771123_100788182_100805550_100823234_100841236_100859561_100878215_100897202_100916526_100936192_100956205_100976569_100997291_101018374_101039824_101061645_101083843_101106423_101129389_101152748_101176505_101200664_101225232_101250213_101275613_101301438_101327693_101354384_101381516_101409095_101437128_101465619_101494574_101524000_101553902_101584286_101615158_101646525_101678392_101710766_101743652_101777057_101810987_101845449_101880448_101915992_101952086_101988737_102025952_102063736_102102098_102141042_102180577_102220709_102261443_102302788_102344750_102387336_102430553_102474407_102518906_102564057_102609866_102656341_102703488_102751315_102799830_102849038_102898948_102949567_103000901_103052959_103105747_103159273_103213544_103268568_103324352_103380903_103438229_103496338_103555236_103614932_103675433_103736746_103798879_103861840_103925636_103990275_104055764_104122112_104189325_104257412_104326380_104396237_104466990_104538648_104611218_104684708_104759125_104834478_104910774_104988020_105066226_105145399_105225546_105306675_105388794_105471911_105556033_105641169_105727327_105814513_105902736_105992004_106082324_106173705_106266153_106359676_106454283_106549980_106646777_106744679_106843695_106943833_107045099_107147502_107251049_107355747_107461605_107568628_107676825_107786203_107896769_108008531_108121495_108235669_108351059_108467674_108585519_108704602_108824929_108946509_109069346_109193449_109318824_109445477_109573415_109702645_109833173_109965005_110098149_110232609_110368394_110505508_110643958_110783749_110924889_111067383_111211236_111356454_111503044_111651010_111800359_111951095_112103225_112256753_112411685_112568025_112725780_112884954_113045551_113207577_113371037_113535935_113702276_113870064_114039303_114209999_114382154_114555774_114730862_114907422_115085458_115264974_115445973_115628460_115812436_115997906_116184873_116373340_116563310_116754787_116947772_117142269_117338281_117535810_117734859_117935430_118137524_118341146_118546296_118752976,
  118961189_119170936_119382219_119595039_119809397_120025295_120242735_120461716_120682240_120904307_121127919_121353075_121579776_121808023_122037814_122269151_122502032_122736458_122972428_123209941_123448996_123689593_123931729_124175405_124420617_124667364_124915645_125165457_125416797_125669665_125924055_126179967_126437396_126696340_126956795_127218757_127482223_127747189_128013650_128281602_128551041_128821961_129094359_129368227_129643562_129920358_130198608_130478307_130759449_131042026_131326032_131611461_131898304_132186555_132476206_132767248_133059675_133353477_133648645_133945171_134243046_134542261_134842805_135144669_135447843_135752316_136058078_136365118_136673425_136982987_137293793_137605831_137919088_138233552_138549210_138866050_139184058_139503220_139823523_140144952_140467494_140791133_141115856_141441646_141768489_142096368_142425270_142755176_143086072_143417940_143750765_144084528_144419213_144754802_145091278_145428623_145766818_146105844_146445685_146786319_147127728_147469893_147812794_148156411_148500723_148845710_149191351_149537625_149884512_150231989_150580035_150928628_151277745_151627365_151977464_152328020_152679009_153030407_153382192_153734339_154086825_154439623_154792711_155146062_155499652_155853455_156207446_156561599_156915887_157270284_157624764_157979300_158333865_158688432_159042973_159397461_159751868_160106167_160460328_160814324_161168127_161521707_161875035_162228083_162580821_162933219_163285248_163636877_163988077_164338818_164689068_165038797_165387974_165736567_166084546_166431879_166778535_167124481_167469686_167814118_168157743_168500531_168842449_169183463_169523542_169862652_170200759_170537832_170873836_171208739_171542507_171875106_172206502_172536662_172865553_173193139_173519387_173844264_174167734_174489765_174810321_175129369_175446874_175762804_176077122_176389796_176700792_177010074_177317610_177623365_177927305_178229396_178529604_178827896_179124237_179418593_179710931_180001216_180289415_180575494_180859420_181141157_181420673_181697934_181972907_182245557_182515852_182783758_183049241_183312269_183572809_183830827_184086289_184339164_184589419_184837019_185081934_185324129_185563573_185800234_186034077_186265073_186493187_186718388_186940643_187159922_187376191_187589420_187799576_188006629_188210547_188411299_188608854_188803181_188994249_189182029_189366488_189547598_189725328_189899647_190070526_190237935_190401843_190562223_190719043_190872274_191021887_191167853_191310142_191448726_191583574_191714659_191841952_191965424_192085047_192200792,
  192312632_192420539_192524484_192624441_192720381_192812277_192900103_192983831_193063434_193138887_193210162_193277234_193340077_193398665_193452972_193502974_193548645_193589962_193626898_193659431_193687538_193711193_193730376_193745064_193755233_193760863_193761933_193758420_193750306_193737569_193720189_193698148_193671426_193640005_193603867_193562993_193517366_193466969_193411785_193351798_193286992_193217352_193142861_193063505_192979271_192890144_192796112_192697161_192593280_192484456_192370678_192251936_192128219_191999517_191865821_191727121_191583411_191434683_191280928_191122140_190958314_190789443_190615522_190436547_190252514_190063418_189869258_189670030_189465734_189256368_189041933_188822428_188597855_188368215_188133511_187893745_187648920_187399041_187144113_186884140_186619128_186349085_186074016_185793930_185508833_185218735_184923645_184623572_184318525_184008516_183693555_183373654_183048825_182719080_182384435_182044901_181700495_181351231_180997124_180638191_180274450_179905916_179532610_179154549_178771753_178384241_177992036_177595157_177193627_176787467_176376702_175961354_175541447_175117007_174688058_174254628_173816743_173374430_172927719_172476638_172021217_171561486_171097477_170629221_170156751_169680099_169199301_168714390_168225402_167732371_167235336_166734332_166229398_165720570_165207887_164691389_164171115_163647104_163119397_162588036_162053063_161514520_160972449_160426895_159877902_159325513_158769776_158210734_157648435_157082926_156514254_155942466_155367613_154789743_154208905_153625150_153038528_152449090_151856887_151261971_150664394_150064209_149461469_148856227_148248537_147638454_147026033_146411330_145794398_145175296_144554078_143930802_143305524_142678303_142049194_141418257_140785549_140151129_139515054_138877384_138238177_137597490_136955384_136311915_135667143_135021127_134373923_133725593_133076193_132425783_131774422_131122169_130469081_129815218_129160638_128505401_127849565_127193188_126536331_125879051_125221407_124563459_123905265_123246884_122588375_121929796_121271205_120612662_119954223_119295949_118637897_117980125_117322692_116665657_116009078_115353014_114697522_114042663_113388494_112735073_112082460_111430713_110779891_110130052_109481255_108833558_108187020_107541699_106897653_106254940_105613617_104973742_104335372_103698565_103063377_102429865_101798087_101168100_100539960_099913726_099289452_098667197_098047017_097428969_096813111_096199497_095588187_094979237_094372704_093768646_093167119_092568180_091971887_091378296_090787463_090199446,
  89614301_089032084_088452853_087876663_087303572_086733635_086166910_085603453_085043321_084486569_083933253_083383430_082837155_082294485_081755474_081220178_080688652_080160951_079637128_079117238_078601334_078089467_077581691_077078055_076578612_076083410_075592501_075105932_074623754_074146013_073672759_073204036_072739894_072280376_071825529_071375398_070930027_070489461_070053744_069622919_069197029_068776117_068360224_067949393_067543662_067143072_066747663_066357472_065972537_065592897_065218587_064849644_064486104_064128001_063775372_063428248_063086664_062750652_062420244_062095472_061776366_061462956_061155274_060853347_060557205_060266875_059982384_059703757_059431020_059164195_058903306_058648375_058399423_058156469_057919533_057688634_057463789_057245015_057032329_056825746_056625280_056430945_056242754_056060720_055884856_055715172_055551680_055394391_055243314_055098460_054959837_054827453_054701314_054581427_054467797_054360429_054259326_054164491_054075928_053993637_053917620_053847876_053784406_053727207_053676276_053631611_053593207_053561059_053535162_053515509_053502093_053494906_053493938_053499180_053510621_053528247_053552046_053582000_053618095_053660312_053708632_053763036_053823503_053890009_053962531_054041046_054125526_054215944_054312274_054414484_054522546_054636428_054756098_054881524_055012674_055149512_055292004_055440114_055593807_055753043_055917784_056087990_056263621_056444634_056630987_056822636_057019538_057221648_057428919_057641305_057858759_058081232_058308674_058541036_058778267_059020316_059267132_059518662_059774854_060035654_060301009_060570865_060845165_061123855_061406877_061694173_061985685_062281354_062581119_062884922_063192701_063504395_063819943_064139284_064462354_064789092_065119434_065453318_065790680_066131458_066475589_066823011_067173661_067527479_067884402_068244369_068607318_068973188_069341918_069713447_070087711_070464652_070844208_071226318_071610922_071997960_072387373_072779100_073173082_073569259_073967572_074367963_074770371_075174739_075581008_075989122_076399023_076810653_077223955_077638874_078055350_078473328_078892750_079313558_079735693_080159099_080583716_081009488_081436356_081864260_082293144_082722949_083153616_083585086_084017301_084450202_084883731_085317830_085752442_086187509_086622975_087058783_087494877_087931202_088367701_088804318_089240998_089677683_090114318_090550847_090987213_091423361_091859234_092294777_092729933_093164646_093598861_094032520_094465567_094897946_095329598_095760469_096190503_096619643_097047834_097475020,
  97901145_098326154_098749991_099172599_099593921_100013901_100432480_100849601_101265208_101679242_102091646_102502362_102911334_103318503_103723813_104127207_104528627_104928016_105325320_105720483_106113451_106504171_106892591_107278659_107662326_108043541_108422255_108798419_109171986_109542907_109911135_110276625_110639330_110999205_111356206_111710289_112061410_112409525_112754593_113096570_113435415_113771084_114103538_114432736_114758639_115081208_115400405_115716194_116028537_116337399_116642743_116944533_117242733_117537308_117828222_118115440_118398928_118678652_118954577_119226670_119494897_119759225_120019620_120276050_120528483_120776886_121021229_121261481_121497615_121729603_121957418_122181035_122400429_122615577_122826454_123033040_123235310_123433244_123626820_123816017_124000816_124181199_124357145_124528637_124695656_124858183_125016202_125169693_125318640_125463024_125602830_125738042_125868645_125994625_126115970_126232667_126344703_126452069_126554753_126652744_126746033_126834609_126918463_126997587_127071974_127141617_127206510_127266648_127322026_127372639_127418485_127459561_127495864_127527395_127554155_127576146_127593374_127605845_127613568_127616553_127614810_127608354_127597199_127581361_127560857_127535707_127505929_127471547_127432583_127389062_127341011_127288455_127231422_127169942_127104043_127033755_126959110_126880140_126796877_126709358_126617618_126521695_126421629_126317458_126209225_126096969_125980735_125860564_125736501_125608589_125476874_125341400_125202216_125059368_124912903_124762870_124609316_124452289_124291839_124128014_123960863_123790436_123616783_123439958_123260013_123077002_122890981_122702006_122510131_122315416_122117916_121917689_121714793_121509286_121301224_121090667_120877672_120662299_120444605_120224648_120002484_119778170_119551761_119323311_119092875_118860505_118626256_118390180_118152330_117912760_117671522_117428669_117184250_116938318_116690923_116442113_116191937_115940441_115687673_115433679_115178505_114922196_114664797_114406351_114146900_113886487_113625154_113362940_113099886_112836032_112571418_112306084_112040073_111773427_111506187_111238396_110970097_110701332_110432145_110162578_109892675_109622479_109352031_109081376_108810558_108539618_108268600_107997547_107726499_107455497_107184581_106913792_106643167_106372746_106102565_105832666_105563085_105293864_105025041_104756655_104488745_104221348_103954504_103688250_103422623_103157659_102893396_102629870_102367117_102105176_101844081_101583867_101324569_101066220_100808854_100552504,
  100297203_100042983_099789876_099537918_099287141_099037583_098789279_098542263_098296572_098052242_097809308_097567808_097327775_097089245_096852253_096616834_096383023_096150854_095920361_095691576_095464528_095239248_095015763_094794101_094574287_094356344_094140298_093926172_093713989_093503773_093295546_093089330_092885146_092683013_092482952_092284981_092089118_091895380_091703784_091514348_091327088_091142020_090959160_090778523_090600120_090423966_090250072_090078450_089909111_089742066_089577326_089414904_089254812_089097064_088941675_088788659_088638028_088489800_088343988_088200609_088059677_087921210_087785223_087651734_087520759_087392315_087266420_087143089_087022336_086904176_086788621_086675684_086565376_086457709_086352695_086250344_086150670_086053683_085959398_085867824_085778974_085692859_085609489_085528878_085451035_085375972_085303701_085234233_085167582_085103758_085042775_084984641_084929367_084876962_084827434_084780792_084737042_084696194_084658253_084623228_084591129_084561964_084535743_084512472_084492162_084474818_084460450_084449064_084440667_084435265_084432864_084433469_084437086_084443718_084453368_084466036_084481718_084500413_084522113_084546811_084574498_084605161_084638790_084675369_084714886_084757323_084802663_084850889_084901978_084955908_085012658_085072202_085134516_085199572_085267343_085337800_085410917_085486662_085565004_085645911_085729347_085815277_085903662_085994466_086087649_086183170_086280991_086381071_086483371_086587851_086694472_086803194_086913975_087026775_087141554_087258271_087376887_087497361_087619653_087743724_087869533_087997041_088126206_088256987_088389341_088523221_088658584_088795383_088933572_089073103_089213929_089356003_089499280_089643712_089789254_089935860_090083482_090232075_090381593_090531991_090683223_090835247_090988019_091141497_091295641_091450410_091605763_091761661_091918062_092074926_092232213_092389882_092547895_092706213_092864800_093023619_093182639_093341825_093501148_093660575_093820078_093979627_094139195_094298754_094458279_094617744_094777126_094936401_095095546_095254539_095413357_095571976_095730371_095888515_096046383_096203946_096361178_096518049_096674531_096830595_096986215_097141362_097296008_097450125_097603685_097756659_097909018_098060736_098211784_098362137_098511767_098660651_098808764_098956082_099102582_099248238_099393026_099536920_099679894_099821925_099962986_100103055_100242107_100380121_100517077_100652954_100787734_100921398_101053929_101185308_101315521_101444552_101572388_101699016_101824425_101948604,
  102071543_102193234_102313666_102432829_102550711_102667300_102782583_102896547_103009181_103120469_103230401_103338963_103446145_103551936_103656327_103759306_103860864_103960992_104059681_104156925_104252719_104347057_104439937_104531359_104621321_104709827_104796877_104882473_104966616_105049308_105130549_105210343_105288693_105365603_105441077_105515122_105587744_105658953_105728757_105797165_105864186_105929829_105994105_106057025_106118602_106178848_106237776_106295400_106351734_106406793_106460589_106513133_106564435_106614503_106663344_106710964_106757369_106802563_106846549_106889330_106930908_106971286_107010463_107048441_107085217_107120789_107155156_107188317_107220270_107251013_107280547_107308870_107335982_107361884_107386573_107410049_107432306_107453340_107473148_107491724_107509063_107525159_107540008_107553603_107565941_107577016_107586823_107595356_107602610_107608578_107613255_107616636_107618718_107619496_107618968_107617132_107613984_107609523_107603745_107596647_107588223_107578466_107567368_107554924_107541126_107525966_107509436_107491530_107472240_107451561_107429485_107406006_107381119_107354816_107327095_107297951_107267385_107235397_107201988_107167162_107130924_107093282_107054243_107013814_106972003_106928819_106884271_106838369_106791126_106742555_106692670_106641487_106589022_106535294_106480324_106424129_106366730_106308148_106248406_106187528_106125540_106062467_105998338_105933181_105867025_105799899_105731833_105662855_105592990_105522266_105450708_105378342_105305192_105231283_105156638_105081282_105005238_104928530_104851181_104773212_104694645_104615502_104535806_104455579_104374845_104293630_104211958_104129855_104047349_103964467_103881235_103797679_103713824_103629694_103545314_103460708_103375901_103290916_103205778_103120511_103035139_102949686_102864177_102778634_102693078_102607533_102522020_102436563_102351186_102265912_102180766_102095771_102010950_101926329_101841928_101757768_101673867_101590241_101506908_101423881_101341176_101258806_101176783_101095120_101013829_100932921_100852408_100772298_100692602_100613329_100534490_100456095_100378159_100300694_100223715_100147238_100071280_099995858_099920992_099846696_099772988_099699884_099627400_099555554_099484363_099413843_099344014_099274892_099206495_099138842_099071950_099005835_098940515_098876004_098812320_098749479_098687501_098626402_098566201_098506917_098448567_098391168_098334737_098279289_098224835_098171385_098118951_098067540_098017160_097967818_097919520_097872268_097826065_097780914_097736816_097693768,
  97651770_097610817_097570908_097532041_097494214_097457426_097421677_097386965_097353291_097320655_097289054_097258487_097228951_097200439_097172948_097146473_097121007_097096545_097073080_097050604_097029109_097008585_096989024_096970413_096952740_096935990_096920151_096905210_096891155_096877975_096865656_096854187_096843554_096833746_096824747_096816542_096809114_096802443_096796511_096791298_096786785_096782952_096779778_096777241_096775319_096773991_096773234_096773025_096773342_096774161_096775460_096777220_096779423_096782051_096785090_096788525_096792344_096796536_096801089_096805993_096811238_096816814_096822711_096828923_096835443_096842264_096849382_096856793_096864490_096872472_096880735_096889276_096898089_096907174_096916526_096926148_096936038_096946201_096956637_096967351_096978347_096989627_097001198_097013061_097025219_097037673_097050426_097063480_097076836_097090496_097104462_097118734_097133313_097148198_097163389_097178885_097194684_097210785_097227188_097243892_097260900_097278215_097295840_097313779_097332038_097350621_097369534_097388781_097408366_097428293_097448565_097469186_097490161_097511494_097533187_097555244_097577666_097600455_097623611_097647135_097671023_097695274_097719886_097744857_097770186_097795873_097821915_097848311_097875058_097902155_097929596_097957376_097985490_098013927_098042680_098071740_098101096_098130739_098160658_098190840_098221272_098251941_098282834_098313935_098345229_098376702_098408338_098440126_098472053_098504108_098536283_098568569_098600957_098633441_098666015_098698671_098731402_098764203_098797066_098829987_098862961_098895984_098929050_098962156_098995296_099028466_099061660_099094872_099128097_099161326_099194555_099227778_099260993_099294195_099327381_099360549_099393695_099426817_099459911_099492973_099525998_099558981_099591915_099624794_099657613_099690367_099723047_099755646_099788156_099820567_099852872_099885059_099917118_099949039_099980811_100012428_100043882_100075168_100106279_100137212_100167962_100198526_100228900_100259082_100289065_100318848_100348424_100377791_100406945_100435882_100464599_100493090_100521349_100549369_100577143_100604663_100631917_100658896_100685590_100711990_100738086_100763870_100789333_100814466_100839260_100863705_100887792_100911510_100934847_100957790_100980327_101002447_101024138_101045388_101066184_101086513_101106361_101125716_101144562_101162886_101180674_101197911_101214585_101230685_101246203_101261131_101275461_101289189_101302310_101314821_101326721_101338007_101348678_101358735_101368177_101377007,
  101385229_101392845_101399860_101406277_101412100_101417334_101421982_101426047_101429533_101432444_101434784_101436559_101437776_101438444_101438571_101438165_101437235_101435792_101433845_101431402_101428475_101425072_101421203_101416879_101412112_101406911_101401289_101395254_101388818_101381989_101374777_101367191_101359240_101350934_101342281_101333293_101323984_101314366_101304455_101294264_101283808_101273104_101262167_101251012_101239656_101228113_101216400_101204532_101192527_101180399_101168166_101155840_101143435_101130963_101118437_101105865_101093258_101080623_101067969_101055304_101042637_101029976_101017330_101004706_100992110_100979548_100967026_100954548_100942119_100929739_100917411_100905139_100892923_100880765_100868667_100856626_100844643_100832713_100820836_100809007_100797222_100785479_100773772_100762100_100750461_100738855_100727281_100715739_100704230_100692755_100681315_100669911_100658545_100647218_100635933_100624693_100613500_100602359_100591271_100580238_100569264_100558347_100547490_100536692_100525951_100515268_100504642_100494072_100483559_100473105_100462710_100452376_100442102_100431890_100421740_100411654_100401630_100391669_100381771_100371936_100362166_100352461_100342820_100333245_100323732_100314281_100304891_100295558_100286281_100277058_100267887_100258767_100249701_100240689_100231733_100222837_100214003_100205234_100196534_100187907_100179356_100170886_100162499_100154200_100145995_100137887_100129880_100121977_100114180_100106490_100098907_100091431_100084059_100076789_100069619_100062547_100055571_100048691_100041902_100035204_100028593_100022066_100015620_100009250_100002954_099996725_099990559_099984452_099978400_099972400_099966445_099960531_099954650_099948798_099942966_099937149_099931338_099925526_099919708_099913877_099908030_099902163_099896274_099890360_099884418_099878448_099872450_099866422_099860365_099854279_099848166_099842027_099835866_099829685_099823487_099817274_099811046_099804806_099798554_099792290_099786015_099779729_099773431_099767124_099760808_099754487_099748161_099741834_099735508_099729186_099722869_099716561_099710266_099703986_099697726_099691489_099685280_099679106_099672971_099666879_099660834_099654841_099648901_099643020_099637201_099631447_099625762_099620153_099614624_099609184_099603839_099598595_099593462_099588445_099583553_099578794_099574177_099569709_099565399_099561256_099557289_099553506_099549916_099546525_099543339_099540364_099537604_099535062_099532741_099530643_099528769_099527121_099525702_099524511_099523551_099522821,
  99522321_099522049_099522006_099522189_099522597_099523227_099524077_099525144_099526428_099527924_099529630_099531542_099533655_099535964_099538463_099541146_099544006_099547038_099550234_099553589_099557098_099560757_099564560_099568503_099572581_099576790_099581126_099585584_099590162_099594856_099599663_099604580_099609605_099614735_099619968_099625301_099630728_099636246_099641848_099647531_099653288_099659112_099664998_099670941_099676934_099682974_099689054_099695170_099701316_099707486_099713676_099719881_099726096_099732317_099738539_099744758_099750973_099757179_099763374_099769554_099775716_099781855_099787967_099794049_099800097_099806107_099812077_099818004_099823886_099829724_099835516_099841263_099846964_099852620_099858231_099863799_099869325_099874810_099880257_099885667_099891044_099896389_099901706_099906995_099912256_099917491_099922698_099927876_099933025_099938142_099943224_099948271_099953281_099958251_099963180_099968065_099972904_099977693_099982430_099987112_099991736_099996300_100000800_100005235_100009602_100013899_100018125_100022275_100026348_100030338_100034244_100038060_100041783_100045410_100048937_100052362_100055681_100058895_100062001_100064998_100067884_100070659_100073323_100075875_100078316_100080647_100082868_100084982_100086990_100088895_100090697_100092399_100094000_100095501_100096903_100098204_100099404_100100503_100101500_100102395_100103188_100103879_100104469_100104957_100105344_100105629_100105814_100105900_100105887_100105777_100105572_100105274_100104887_100104414_100103858_100103222_100102507_100101717_100100855_100099921_100098920_100097854_100096726_100095539_100094299_100093008_100091674_100090299_100088889_100087449_100085984_100084499_100083001_100081495_100079987_100078484_100076992_100075518_100074068_100072646_100071258_100069906_100068595_100067328_100066106_100064932_100063808_100062736_100061716_100060751_100059841_100058987_100058190_100057449_100056764_100056135_100055561_100055044_100054582_100054176_100053826_100053531_100053293_100053109_100052978_100052899_100052870_100052889_100052954_100053062_100053211_100053399_100053625_100053886_100054183_100054511_100054871_100055259_100055674_100056116_100056582_100057072_100057586_100058121_100058679_100059259_100059859_100060479_100061117_100061769_100062435_100063111_100063794_100064481_100065169_100065854_100066535_100067207_100067869_100068517_100069147_100069757_100070343_100070904_100071436_100071937_100072406_100072841_100073242_100073607_100073936_100074227_100074480_100074694_100074866_100074996,
  100075083_100075126_100075125_100075079_100000000_100000000_100000000_100000000_100000000_100000000_100000000_100000000_100000000_100000000_100000000_100000000_100000000_100000000_100000000_100000000_100000000_100000000_100000000_100000000_100000000_100000000_100000000_100000000_100000000_100000000_100000000_100000000_100000000_100000000_100000000_100000000_100000000_100000000_100000000_100000000_100000000_100000000_100000000_100000000_100000000_100000000_100000000_100000000_100000000_100000000_100000000_100000000_100000000_100000000_100000000_100000000_100000000_100000000_100000000_100000000_100000000_100000000_100000000_100000000_100000000_100000000_100000000_100000000_100000000_100000000_100000000_100000000_100000000_100000000_100000000_100000000_100000000_100000000_100000000_100000000_100000000_100000000_100000000_100000000_100000000_100000000_100000000_100000000_100000000_100000000_100000000_100000000_100000000_100000000_100000000_100000000_100000000_100000000_100000000_100000000_100000000_100000000_100000000_100000000_100000000_100000000_100000000_100000000_100000000_100000000_100000000_100000000_100000000_100000000_100000000_100000000_100000000_100000000_100000000_100000000_100000000_100000000_100000000_100000000_100000000_100000000_100000000_100000000_100000000_100000000_100000000_100000000_100000000_100000000_100000000_100000000_100000000_100000000_100000000_100000000_100000000_100000000_100000000_100000000_100000000_100000000_100000000_100000000_100000000_100000000_100000000_100000000_100000000_100000000_100000000_100000000_100000000_100000000_100000000_100000000_100000000_100000000_100000000_100000000_100000000_100000000_100000000_100000000_100000000_100000000_100000000_100000000_100000000_100000000_100000000_100000000_100000000_100000000_100000000_100000000_100000000_100000000_100000000_100000000_100000000_100000000_100000000_100000000_100000000_100000000_100000000_100000000_100000000_100000000_100000000_100000000_100000000_100000000_100000000_100000000_100000000_100000000_100000000_100000000_100000000_100000000_100000000_100000000_100000000_100000000_100000000_100000000_100000000_100000000_100000000_100000000_100000000_100000000_100000000_100000000_100000000_100000000_100000000_100000000_100000000_100000000_100000000_100000000_100000000_100000000_100000000_100000000_100000000_100000000_100000000_100000000_100000000_100000000_100000000_100000000_100000000_100000000_100000000_100000000_100000000_100000000_100000000_100000000_100000000_100000000_100000000_100000000_100000000_100000000_100000000_100000000]

/-- `_db20_table`, pmesh/_window_wavelets.h:3077-3909: 3332 entries. -/
def db20Rows : List ℕ := [
  100202336_100206266_100210263_100214329_100218464_100222670_100226947_100231296_100235720_100240217_100244791_100249441_100254170_100258977_100263864_100268833_100273884_100279019_100284238_100289544_100294937_100300418_100305989_100311650_100317404_100323251_100329193_100335231_100341366_100347600_100353934_100360370_100366908_100373550_100380297_100387152_100394115_100401188_100408372_100415669_100423080_100430606_100438251_100446013_100453897_100461902_100470031_100478285_100486665_100495174_100503813_100512584_100521488_100530528_100539704_100549018_100558473_100568070_100577811_100587697_100597731_100607914_100618248_100628735_100639377_100650176_100661134_100672252_100683533_100694978_100706590_100718370_100730321_100742445_100754743_100767218_100779873_100792708_100805726_100818929_100832320_100845901_100859673_100873639_100887802_100902164_100916726_100931491_100946462_100961641_100977030_100992632_101008448_101024482_101040736_101057212_101073913_101090841_101107999_101125389_101143014_101160876_101178979_101197324_101215914_101234752_101253841_101273183_101292781_101312638_101332756_101353139_101373788_101394707_101415899_101437366_101459112_101481138_101503449_101526047_101548935_101572116_101595593_101619369_101643447_101667829_101692520_101717522_101742838_101768472_101794426_101820703_101847308_101874242_101901510_101929114_101957058_101985345_102013978_102042960_102072296_102101988_102132039_102162454_102193235_102224386_102255910_102287810_102320091_102352756_102385808_102419250_102453087_102487322_102521958_102556999_102592449_102628311_102664589_102701286_102738407_102775955_102813934_102852347_102891198_102930491_102970230_103010418_103051060_103092158_103133718_103175743_103218236_103261202_103304645_103348568_103392975_103437871_103483259_103529143_103575528_103622417_103669814_103717723_103766148_103815094_103864564_103914563_103965094_104016162_104067771_104119925_104172627_104225883_104279696_104334070_104389010_104444520_104500604_104557265_104614509_104672340_104730762_104789778_104849394_104909613_104970439_105031878_105093932_105156608_105219907_105283836_105348398_105413598_105479439_105545926_105613064_105680856_105749307_105818421_105888203_105958656_106029785_106101595_106174089_106247273_106321149_106395723_106470998_106546980_106623672_106701078_106779204_106858052_106937628_107017935_107098978_107180762_107263289_107346565_107430594_107515380_107600927_107687240_107774322_107862177_107950811_108040226_108130428_108221420_108313207_108405791_108499179_108593373_108688378_108784197,
  108880836_108978297_109076584_109175703_109275656_109376448_109478082_109580563_109683893_109788078_109893121_109999026_110105796_110213436_110321948_110431337_110541607_110652760_110764801_110877734_110991561_111106286_111221914_111338447_111455888_111574242_111693511_111813700_111934810_112056846_112179811_112303708_112428540_112554310_112681022_112808678_112937282_113066835_113197343_113328806_113461229_113594614_113728963_113864280_114000567_114137826_114276061_114415274_114555467_114696643_114838803_114981952_115126090_115271220_115417344_115564465_115712584_115861703_116011825_116162951_116315083_116468223_116622372_116777533_116933707_117090895_117249099_117408320_117568560_117729821_117892102_118055405_118219733_118385084_118551461_118718865_118887295_119056754_119227241_119398757_119571303_119744880_119919486_120095124_120271793_120449493_120628224_120807987_120988781_121170605_121353461_121537347_121722264_121908210_122095185_122283188_122472219_122662277_122853360_123045469_123238601_123432755_123627931_123824127_124021341_124219573_124418819_124619079_124820350_125022632_125225920_125430215_125635513_125841811_126049109_126257402_126466689_126676966_126888232_127100482_127313714_127527925_127743112_127959271_128176398_128394491_128613545_128833556_129054522_129276437_129499298_129723101_129947841_130173513_130400114_130627638_130856081_131085437_131315703_131546872_131778939_132011900_132245748_132480478_132716085_132952561_133189903_133428103_133667155_133907053_134147790_134389360_134631757_134874973_135119001_135363835_135609467_135855890_136103097_136351080_136599831_136849343_137099607_137350616_137602361_137854834_138108027_138361931_138616537_138871837_139127822_139384482_139641808_139899791_140158422_140417691_140677588_140938103_141199227_141460949_141723258_141986146_142249600_142513611_142778168_143043259_143308875_143575002_143841631_144108750_144376347_144644411_144912929_145181891_145451283_145721093_145991310_146261920_146532912_146804272_147075987_147348044_147620431_147893135_148166140_148439435_148713006_148986838_149260918_149535231_149809765_150084503_150359433_150634539_150909807_151185221_151460768_151736431_152012196_152288048_152563970_152839948_153115966_153392008_153668058_153944100_154220117_154496095_154772016_155047863_155323620_155599271_155874798_156150184_156425413_156700467_156975329_157249981_157524406_157798586_158072504_158346141_158619479_158892501_159165187_159437521_159709483_159981055_160252218_160522954_160793243_161063067_161332407_161601243_161869557_162137329,
  162404539_162671168_162937197_163202606_163467374_163731483_163994911_164257640_164519649_164780917_165041425_165301152_165560078_165818181_166075442_166331840_166587354_166841962_167095645_167348382_167600150_167850930_168100699_168349437_168597122_168843734_169089250_169333649_169576910_169819010_170059929_170299645_170538136_170775379_171011354_171246039_171479411_171711449_171942130_172171433_172399335_172625815_172850850_173074418_173296498_173517066_173736101_173953580_174169482_174383783_174596462_174807496_175016863_175224541_175430507_175634739_175837215_176037913_176236809_176433882_176629110_176822470_177013940_177203498_177391121_177576787_177760474_177942160_178121823_178299440_178474990_178648450_178819799_178989013_179156072_179320954_179483636_179644097_179802316_179958269_180111936_180263295_180412325_180559004_180703311_180845224_180984721_181121783_181256387_181388514_181518140_181645247_181769812_181891816_182011238_182128056_182242252_182353803_182462691_182568895_182672395_182773170_182871202_182966471_183058957_183148640_183235501_183319521_183400682_183478963_183554346_183626813_183696345_183762923_183826530_183887147_183944756_183999339_184050879_184099358_184144760_184187066_184226259_184262324_184295243_184324999_184351577_184374960_184395132_184412078_184425782_184436228_184443401_184447287_184447870_184445136_184439070_184429658_184416887_184400741_184381209_184358276_184331929_184302155_184268942_184232277_184192148_184148543_184101449_184050856_183996752_183939126_183877968_183813265_183745009_183673189_183597795_183518818_183436248_183350076_183260293_183166892_183069862_182969197_182864889_182756930_182645313_182530031_182411077_182288446_182162130_182032124_181898423_181761021_181619913_181475095_181326562_181174310_181018336_180858636_180695207_180528045_180357149_180182516_180004144_179822032_179636177_179446580_179253240_179056156_178855327_178650755_178442440_178230383_178014584_177795047_177571771_177344761_177114017_176879544_176641344_176399421_176153779_175904421_175651353_175394580_175134106_174869937_174602079_174330539_174055322_173776437_173493890_173207688_172917840_172624355_172327240_172026505_171722160_171414213_171102676_170787558_170468870_170146624_169820831_169491502_169158651_168822289_168482429_168139086_167792271_167442001_167088287_166731147_166370593_166006643_165639311_165268614_164894568_164517191_164136498_163752508_163365240_162974710_162580937_162183941_161783741_161380357_160973808_160564115_160151299_159735381_159316381_158894323_158469228_158041118,
  157610017_157175947_156738933_156298997_155856165_155410460_154961907_154510533_154056362_153599420_153139734_152677330_152212235_151744476_151274081_150801077_150325494_149847359_149366701_148883550_148397935_147909885_147419432_146926606_146431436_145933956_145434194_144932185_144427959_143921549_143412987_142902306_142389540_141874723_141357887_140839067_140318297_139795613_139271048_138744638_138216419_137686427_137154697_136621265_136086169_135549445_135011131_134471262_133929878_133387016_132842715_132297011_131749945_131201555_130651879_130100958_129548830_128995536_128441116_127885609_127329056_126771497_126212974_125653528_125093199_124532030_123970061_123407334_122843892_122279777_121715030_121149696_120583815_120017431_119450588_118883327_118315693_117747730_117179479_116610987_116042295_115473449_114904492_114335469_113766424_113197402_112628447_112059604_111490918_110922434_110354196_109786250_109218642_108651416_108084617_107518292_106952485_106387242_105822610_105258632_104695355_104132826_103571089_103010190_102450175_101891090_101332981_100775894_100219874_099664968_099111221_098558679_098007388_097457394_096908742_096361479_095815650_095271300_094728476_094187223_093647586_093109611_092573343_092038828_091506111_090975237_090446251_089919198_089394123_088871071_088350086_087831213_087314496_086799980_086287709_085777727_085270077_084764804_084261952_083761562_083263680_082768347_082275608_081785504_081298078_080813373_080331430_079852292_079376001_078902598_078432124_077964621_077500129_077038690_076580343_076125129_075673088_075224259_074778683_074336397_073897441_073461855_073029675_072600940_072175689_071753958_071335784_070921206_070510258_070102979_069699402_069299565_068903503_068511250_068122842_067738312_067357694_066981023_066608332_066239653_065875019_065514463_065158016_064805709_064457574_064113642_063773942_063438506_063107361_062780538_062458065_062139970_061826282_061517028_061212234_060911929_060616137_060324884_060038197_059756099_059478616_059205771_058937589_058674091_058415301_058161241_057911932_057667397_057427655_057192728_056962634_056737394_056517026_056301548_056090979_055885336_055684636_055488895_055298129_055112353_054931584_054755834_054585117_054419448_054258839_054103303_053952850_053807493_053667242_053532108_053402099_053277226_053157497_053042920_052933503_052829252_052730175_052636276_052547562_052464037_052385706_052312573_052244640_052181910_052124385_052072068_052024958_051983057_051946363_051914878_051888598_051867523_051851650_051840976_051835498_051835212,
  51840112_051850195_051865454_051885882_051911474_051942221_051978116_052019150_052065314_052116598_052172992_052234486_052301068_052372725_052449447_052531219_052618028_052709859_052806699_052908532_053015342_053127113_053243828_053365469_053492018_053623458_053759768_053900929_054046921_054197723_054353314_054513672_054678775_054848600_055023123_055202320_055386167_055574640_055767712_055965357_056167549_056374261_056585465_056801133_057021236_057245745_057474631_057707864_057945412_058187246_058433332_058683639_058938134_059196785_059459558_059726418_059997331_060272263_060551177_060834038_061120810_061411455_061705937_062004218_062306259_062612022_062921468_063234557_063551251_063871507_064195286_064522547_064853248_065187346_065524801_065865568_066209605_066556869_066907315_067260899_067617577_067977304_068340034_068705722_069074322_069445786_069820070_070197124_070576903_070959359_071344443_071732107_072122302_072514981_072910092_073307588_073707418_074109533_074513881_074920413_075329077_075739823_076152599_076567354_076984036_077402593_077822973_078245123_078668992_079094525_079521671_079950375_080380586_080812248_081245309_081679715_082115412_082552346_082990462_083429706_083870024_084311361_084753663_085196874_085640940_086085807_086531418_086977719_087424654_087872169_088320208_088768717_089217639_089666919_090116502_090566332_091016355_091466515_091916756_092367023_092817261_093267414_093717428_094167247_094616815_095066079_095514982_095963471_096411489_096858983_097305897_097752178_098197770_098642620_099086672_099529874_099972171_100413510_100853836_101293097_101731239_102168209_102603954_103038422_103471559_103903314_104333634_104762468_105189764_105615470_106039535_106461909_106882540_107301379_107718374_108133477_108546637_108957805_109366932_109773970_110178869_110581582_110982061_111380259_111776127_112169621_112560692_112949295_113335384_113718914_114099839_114478115_114853698_115226544_115596608_115963849_116328223_116689688_117048203_117403724_117756213_118105627_118451927_118795073_119135025_119471746_119805195_120135337_120462132_120785544_121105537_121422073_121735119_122044639_122350597_122652961_122951696_123246770_123538150_123825803_124109699_124389806_124666094_124938532_125207093_125471746_125732463_125989217_126241980_126490726_126735428_126976061_127212600_127445021_127673300_127897413_128117338_128333052_128544535_128751764_128954721_129153384_129347735_129537755_129723426_129904731_130081653_130254176_130422283_130585961_130745194_130899970_131050274_131196094_131337418_131474235,
  131606534_131734306_131857539_131976227_132090359_132199930_132304931_132405356_132501200_132592457_132679123_132761194_132838667_132911538_132979806_133043470_133102528_133156981_133206828_133252072_133292713_133328754_133360198_133387048_133409308_133426984_133440080_133448604_133452560_133451957_133446802_133437104_133422871_133404114_133380843_133353069_133320803_133284057_133242844_133197177_133147070_133092538_133033596_132970259_132902543_132830466_132754045_132673297_132588242_132498899_132405287_132307427_132205339_132099045_131988567_131873928_131755150_131632258_131505275_131374226_131239137_131100034_130956942_130809889_130658902_130504009_130345239_130182620_130016182_129845956_129671971_129494258_129312850_129127777_128939074_128746771_128550904_128351505_128148610_127942252_127732468_127519293_127302763_127082914_126859785_126633411_126403832_126171085_125935209_125696243_125454227_125209201_124961205_124710279_124456464_124199803_123940337_123678107_123413157_123145529_122875266_122602412_122327011_122049106_121768742_121485964_121200817_120913345_120623596_120331613_120037445_119741136_119442733_119142284_118839835_118535434_118229128_117920965_117610993_117299260_116985814_116670704_116353978_116035686_115715876_115394598_115071900_114747833_114422445_114095787_113767908_113438859_113108688_112777447_112445185_112111953_111777801_111442779_111106939_110770329_110433001_110095006_109756393_109417214_109077519_108737358_108396783_108055843_107714590_107373073_107031343_106689450_106347446_106005379_105663301_105321261_104979309_104637496_104295870_103954483_103613383_103272620_102932243_102592301_102252844_101913920_101575578_101237867_100900835_100564530_100229000_099894293_099560457_099227538_098895585_098564644_098234762_097905985_097578359_097251931_096926745_096602849_096280286_095959101_095639340_095321047_095004264_094689037_094375409_094063422_093753119_093444543_093137736_092832740_092529595_092228343_091929024_091631679_091336348_091043070_090751884_090462829_090175943_089891265_089608831_089328680_089050847_088775368_088502280_088231619_087963418_087697713_087434538_087173925_086915909_086660522_086407797_086157764_085910456_085665903_085424135_085185183_084949076_084715841_084485509_084258107_084033662_083812200_083593749_083378335_083165981_082956714_082750558_082547536_082347672_082150987_081957506_081767248_081580236_081396490_081216029_081038874_080865043_080694555_080527428_080363678_080203323_080046380_079892863_079742787_079596168_079453020_079313355_079177187_079044528_078915390,
  78789784_078667722_078549212_078434264_078322889_078215093_078110885_078010273_077913262_077819860_077730072_077643904_077561358_077482441_077407155_077335502_077267487_077203109_077142371_077085273_077031815_076981997_076935819_076893277_076854371_076819098_076787455_076759437_076735042_076714263_076697097_076683536_076673575_076667206_076664423_076665217_076669580_076677503_076688976_076703989_076722532_076744594_076770162_076799225_076831770_076867784_076907254_076950164_076996501_077046250_077099394_077155917_077215803_077279035_077345594_077415464_077488625_077565058_077644743_077727662_077813792_077903114_077995605_078091244_078190009_078291877_078396824_078504828_078615863_078729905_078846930_078966912_079089826_079215644_079344341_079475889_079610262_079747430_079887367_080030043_080175429_080323497_080474216_080627556_080783487_080941978_081102997_081266514_081432497_081600912_081771729_081944913_082120432_082298253_082478341_082660662_082845182_083031867_083220681_083411590_083604557_083799548_083996525_084195454_084396296_084599016_084803577_085009941_085218071_085427930_085639479_085852681_086067497_086283890_086501820_086721248_086942137_087164446_087388138_087613171_087839507_088067107_088295930_088525937_088757088_088989343_089222661_089457002_089692327_089928595_090165765_090403796_090642649_090882283_091122657_091363730_091605462_091847811_092090738_092334202_092578161_092822575_093067403_093312606_093558141_093803968_094050048_094296338_094542799_094789391_095036072_095282804_095529544_095776255_096022894_096269423_096515802_096761991_097007951_097253642_097499024_097744060_097988709_098232933_098476693_098719951_098962668_099204807_099446329_099687196_099927372_100166819_100405499_100643375_100880412_101116572_101351820_101586119_101819433_102051728_102282967_102513117_102742142_102970008_103196681_103422126_103646312_103869204_104090769_104310975_104529789_104747180_104963116_105177566_105390498_105601882_105811689_106019887_106226447_106431341_106634538_106836012_107035734_107233675_107429810_107624110_107816549_108007102_108195742_108382445_108567184_108749937_108930678_109109384_109286032_109460598_109633061_109803399_109971590_110137612_110301446_110463071_110622467_110779615_110934496_111087091_111237383_111385354_111530986_111674264_111815170_111953690_112089807_112223508_112354777_112483601_112609966_112733859_112855268_112974180_113090584_113204468_113315823_113424637_113530900_113634604_113735740_113834298_113930272_114023652_114114433_114202608_114288170_114371114_114451434_114529125,
  114604184_114676606_114746387_114813526_114878018_114939862_114999056_115055599_115109489_115160727_115209313_115255246_115298528_115339160_115377144_115412481_115445175_115475228_115502644_115527426_115549579_115569107_115586015_115600309_115611994_115621078_115627565_115631464_115632782_115631526_115627706_115621328_115612403_115600939_115586947_115570437_115551419_115529903_115505902_115479426_115450488_115419100_115385275_115349025_115310365_115269308_115225868_115180060_115131898_115081397_115028574_114973444_114916022_114856327_114794374_114730181_114663765_114595143_114524335_114451359_114376233_114298976_114219608_114138149_114054617_113969035_113881421_113791797_113700185_113606604_113511078_113413627_113314275_113213043_113109954_113005031_112898298_112789777_112679492_112567468_112453728_112338297_112221199_112102459_111982102_111860153_111736637_111611581_111485010_111356950_111227427_111096467_110964098_110830345_110695235_110558796_110421055_110282039_110141775_110000292_109857616_109713776_109568800_109422715_109275551_109127335_108978096_108827862_108676662_108524525_108371480_108217554_108062779_107907181_107750791_107593638_107435750_107277157_107117889_106957974_106797443_106636323_106474645_106312439_106149733_105986556_105822940_105658912_105494502_105329740_105164656_104999277_104833635_104667758_104501675_104335416_104169009_104002485_103835872_103669199_103502495_103335790_103169111_103002488_102835949_102669524_102503240_102337126_102171210_102005521_101840087_101674935_101510093_101345590_101181453_101017709_100854385_100691510_100529109_100367211_100205841_100045026_099884792_099725167_099566175_099407843_099250197_099093261_098937062_098781623_098626971_098473130_098320125_098167978_098016716_097866360_097716936_097568466_097420973_097274480_097129010_096984585_096841227_096698958_096557800_096417773_096278899_096141198_096004691_095869398_095735338_095602532_095470999_095340757_095211826_095084223_094957966_094833074_094709563_094587451_094466754_094347490_094229673_094113320_093998446_093885066_093773195_093662847_093554036_093446777_093341081_093236962_093134434_093033507_092934194_092836507_092740456_092646052_092553307_092462229_092372829_092285116_092199099_092114787_092032187_091951309_091872159_091794744_091719071_091645148_091572979_091502571_091433929_091367057_091301962_091238647_091177115_091117371_091059418_091003259_090948896_090896332_090845568_090796606_090749447_090704093_090660543_090618797_090578857_090540720_090504387_090469857_090437127_090406196_090377063_090349724,
  90324177_090300419_090278447_090258256_090239844_090223206_090208337_090195232_090183887_090174296_090166454_090160354_090155990_090153355_090152444_090153248_090155761_090159975_090165882_090173475_090182743_090193680_090206276_090220523_090236409_090253928_090273067_090293818_090316170_090340112_090365634_090392725_090421374_090451569_090483298_090516551_090551314_090587575_090625323_090664544_090705226_090747356_090790919_090835904_090882296_090930081_090979246_091029776_091081657_091134874_091189413_091245259_091302397_091360811_091420487_091481408_091543559_091606924_091671487_091737233_091804144_091872205_091941399_092011708_092083118_092155609_092229167_092303772_092379409_092456059_092533706_092612331_092691917_092772447_092853901_092936264_093019515_093103638_093188614_093274424_093361052_093448477_093536682_093625648_093715356_093805789_093896927_093988751_094081243_094174384_094268155_094362538_094457513_094553061_094649164_094745802_094842957_094940609_095038740_095137330_095236361_095335813_095435668_095535905_095636507_095737455_095838728_095940309_096042178_096144317_096246706_096349327_096452160_096555188_096658390_096761749_096865246_096968862_097072578_097176376_097280237_097384144_097488077_097592018_097695949_097799851_097903708_098007500_098111209_098214818_098318308_098421663_098524863_098627892_098730733_098833366_098935776_099037945_099139855_099241490_099342832_099443865_099544572_099644935_099744939_099844566_099943801_100042627_100141027_100238986_100336487_100433515_100530053_100626087_100721601_100816578_100911004_101004865_101098143_101190826_101282898_101374344_101465150_101555302_101644785_101733586_101821691_101909085_101995756_102081691_102166875_102251295_102334940_102417797_102499852_102581094_102661510_102741089_102819818_102897687_102974684_103050798_103126017_103200332_103273731_103346205_103417743_103488335_103557971_103626643_103694341_103761056_103826779_103891502_103955216_104017913_104079586_104140226_104199826_104258380_104315880_104372320_104427692_104481992_104535213_104587350_104638396_104688348_104737199_104784946_104831584_104877109_104921517_104964804_105006967_105048003_105087909_105126683_105164322_105200824_105236188_105270411_105303492_105335431_105366227_105395878_105424386_105451749_105477968_105503043_105526975_105549765_105571415_105591924_105611296_105629532_105646634_105662604_105677445_105691160_105703752_105715223_105725577_105734818_105742950_105749977_105755902_105760731_105764468_105767117_105768685_105769175_105768594_105766947_105764239_105760478,
  105755668_105749817_105742930_105735015_105726078_105716127_105705168_105693209_105680257_105666320_105651405_105635522_105618677_105600879_105582137_105562459_105541853_105520328_105497895_105474560_105450334_105425226_105399246_105372402_105344705_105316164_105286789_105256591_105225579_105193763_105161155_105127763_105093599_105058673_105022996_104986578_104949431_104911565_104872991_104833720_104793764_104753134_104711840_104669894_104627308_104584093_104540261_104495822_104450789_104405174_104358988_104312243_104264950_104217122_104168771_104119908_104070545_104020695_103970369_103919580_103868339_103816659_103764552_103712029_103659104_103605788_103552092_103498031_103443614_103388856_103333767_103278360_103222646_103166639_103110350_103053790_102996973_102939909_102882612_102825092_102767361_102709432_102651316_102593024_102534569_102475961_102417214_102358337_102299342_102240241_102181045_102121765_102062412_102002998_101943534_101884030_101824497_101764947_101705390_101645836_101586297_101526782_101467303_101407870_101348493_101289182_101229947_101170799_101111747_101052802_100993973_100935269_100876702_100818279_100760012_100701908_100643978_100586230_100528674_100471319_100414174_100357247_100300548_100244085_100187868_100131903_100076201_100020768_099965614_099910747_099856175_099801906_099747947_099694307_099640994_099588014_099535377_099483089_099431157_099379590_099328395_099277578_099227146_099177108_099127470_099078238_099029421_098981024_098933053_098885517_098838421_098791772_098745576_098699840_098654569_098609770_098565449_098521612_098478264_098435412_098393061_098351218_098309886_098269072_098228782_098189020_098149792_098111102_098072956_098035358_097998314_097961828_097925904_097890547_097855762_097821551_097787921_097754874_097722414_097690546_097659273_097628598_097598525_097569056_097540197_097511948_097484314_097457296_097430898_097405123_097379972_097355448_097331553_097308289_097285658_097263662_097242302_097221580_097201497_097182055_097163254_097145095_097127580_097110709_097094482_097078900_097063963_097049671_097036024_097023023_097010666_096998953_096987883_096977457_096967672_096958528_096950024_096942159_096934930_096928336_096922377_096917049_096912351_096908280_096904835_096902013_096899811_096898227_096897258_096896900_096897152_096898010_096899470_096901529_096904184_096907430_096911265_096915684_096920684_096926260_096932408_096939123_096946403_096954241_096962634_096971576_096981064_096991091_097001654_097012747_097024365_097036503_097049156_097062318_097075983_097090147,
  97104803_097119947_097135571_097151670_097168239_097185272_097202761_097220702_097239088_097257912_097277169_097296852_097316954_097337469_097358391_097379712_097401426_097423527_097446007_097468859_097492077_097515654_097539582_097563854_097588465_097613405_097638668_097664248_097690136_097716325_097742808_097769578_097796627_097823948_097851533_097879375_097907467_097935801_097964370_097993165_098022180_098051407_098080838_098110467_098140284_098170284_098200457_098230797_098261297_098291947_098322742_098353673_098384733_098415914_098447209_098478611_098510112_098541704_098573380_098605132_098636954_098668838_098700777_098732763_098764789_098796848_098828934_098861038_098893153_098925274_098957392_098989501_099021595_099053666_099085707_099117713_099149677_099181591_099213450_099245248_099276978_099308634_099340210_099371700_099403099_099434399_099465597_099496685_099527659_099558513_099589242_099619841_099650303_099680625_099710802_099740827_099770697_099800407_099829953_099859329_099888531_099917556_099946398_099975054_100003519_100031790_100059862_100087733_100115397_100142852_100170094_100197120_100223926_100250508_100276864_100302991_100328886_100354544_100379965_100405144_100430079_100454768_100479207_100503395_100527328_100551005_100574423_100597580_100620474_100643103_100665464_100687555_100709376_100730924_100752196_100773192_100793910_100814348_100834504_100854377_100873966_100893269_100912285_100931012_100949449_100967594_100985448_101003008_101020273_101037242_101053914_101070288_101086363_101102139_101117614_101132787_101147657_101162225_101176488_101190446_101204099_101217446_101230486_101243218_101255643_101267759_101279566_101291064_101302252_101313130_101323697_101333954_101343900_101353535_101362858_101371871_101380572_101388961_101397040_101404808_101412264_101419410_101426246_101432771_101438987_101444894_101450492_101455781_101460763_101465437_101469805_101473868_101477625_101481079_101484229_101487077_101489623_101491869_101493816_101495464_101496815_101497871_101498632_101499100_101499276_101499161_101498758_101498066_101497089_101495828_101494283_101492458_101490353_101487971_101485313_101482381_101479177_101475703_101471961_101467953_101463681_101459147_101454354_101449303_101443998_101438440_101432631_101426574_101420272_101413727_101406941_101399917_101392657_101385165_101377442_101369492_101361316_101352919_101344302_101335469_101326422_101317163_101307697_101298025_101288151_101278077_101267807_101257343_101246689_101235847_101224820_101213612_101202226_101190664_101178930_101167027,
  101154958_101142727_101130336_101117788_101105088_101092237_101079240_101066100_101052820_101039404_101025854_101012175_100998370_100984441_100970393_100956230_100941954_100927569_100913080_100898488_100883799_100869016_100854142_100839181_100824137_100809014_100793815_100778544_100763205_100747801_100732338_100716817_100701243_100685621_100669953_100654244_100638498_100622717_100606907_100591072_100575214_100559338_100543448_100527547_100511640_100495730_100479821_100463917_100448022_100432140_100416274_100400428_100384606_100368812_100353049_100337322_100321633_100305987_100290387_100274837_100259340_100243900_100228520_100213204_100197956_100182778_100167675_100152649_100137703_100122842_100108068_100093384_100078794_100064300_100049905_100035613_100021427_100007348_099993380_099979525_099965787_099952167_099938668_099925292_099912042_099898921_099885929_099873070_099860345_099847756_099835306_099822996_099810827_099798802_099786922_099775188_099763603_099752167_099740882_099729749_099718769_099707943_099697273_099686759_099676403_099666205_099656165_099646285_099636566_099627007_099617610_099608376_099599303_099590394_099581647_099573065_099564646_099556391_099548300_099540374_099532611_099525014_099517580_099510311_099503206_099496264_099489487_099482873_099476422_099470134_099464009_099458046_099452244_099446604_099441124_099435805_099430645_099425645_099420803_099416119_099411592_099407221_099403006_099398947_099395041_099391290_099387691_099384244_099380948_099377802_099374806_099371958_099369259_099366706_099364299_099362036_099359918_099357943_099356111_099354419_099352868_099351455_099350182_099349045_099348045_099347179_099346448_099345851_099345385_099345050_099344846_099344770_099344822_099345000_099345304_099345732_099346284_099346957_099347751_099348665_099349697_099350846_099352110_099353490_099354982_099356587_099358302_099360127_099362060_099364099_099366244_099368492_099370844_099373296_099375849_099378500_099381248_099384092_099387031_099390062_099393186_099396399_099399701_099403091_099406567_099410127_099413771_099417497_099421303_099425189_099429152_099433193_099437308_099441497_099445759_099450092_099454495_099458967_099463506_099468112_099472782_099477516_099482312_099487169_099492086_099497062_099502095_099507184_099512328_099517525_099522776_099528077_099533429_099538829_099544278_099549773_099555314_099560899_099566528_099572199_099577911_099583663_099589454_099595282_099601148_099607050_099612986_099618956_099624959_099630994_099637059_099643154_099649278_099655429_099661607_099667811,
  99674040_099680292_099686567_099692864_099699182_099705520_099711877_099718251_099724643_099731050_099737473_099743909_099750358_099756819_099763291_099769772_099776262_099782760_099789263_099795772_099802285_099808801_099815319_099821837_099828354_099834870_099841382_099847890_099854392_099860888_099867375_099873852_099880318_099886773_099893213_099899639_099906049_099912440_099918813_099925165_099931496_099937803_099944086_099950343_099956572_099962772_099968943_099975081_099981187_099987258_099993293_099999292_100005251_100011171_100017050_100022886_100028678_100034425_100040125_100045777_100051380_100056933_100062434_100067882_100073276_100078614_100083895_100089119_100094284_100099388_100104431_100109412_100114330_100119183_100123970_100128691_100133345_100137930_100142446_100146892_100151267_100155570_100159800_100163958_100168042_100172051_100175985_100179843_100183625_100187330_100190958_100194509_100197981_100201375_100204690_100207926_100211083_100214161_100217158_100220077_100222915_100225673_100228351_100230950_100233468_100235906_100238265_100240543_100242743_100244862_100246903_100248864_100250747_100252550_100254276_100255923_100257493_100258985_100260400_100261738_100263000_100264186_100265296_100266331_100267291_100268178_100268990_100269729_100270395_100270990_100271512_100271964_100272345_100272656_100272897_100273071_100273176_100273213_100273184_100273089_100272929_100272704_100272415_100272062_100271648_100271172_100270634_100270037_100269380_100268665_100267892_100267062_100266176_100265235_100264240_100263191_100262089_100260936_100259732_100258477_100257174_100255822_100254423_100252978_100251487_100249951_100248372_100246750_100245086_100243381_100241637_100239853_100238031_100236172_100234277_100232347_100230383_100228386_100226357_100224296_100222205_100220085_100217937_100215762_100213561_100211335_100209085_100206811_100204516_100202200_100199863_100197508_100195135_100192745_100190339_100187918_100185483_100183035_100180575_100178104_100175622_100173132_100170633_100168128_100165615_100163097_100160575_100158048_100155518_100152986_100150453_100147918_100145384_100142850_100140317_100137787_100135259_100132734_100130213_100127696_100125185_100122678_100120178_100117684_100115197_100112718_100110246_100107782_100105327_100102881_100100444_100098017_100095599_100093192_100090795_100088409_100086034_100083669_100081316_100078975_100076645_100074327_100072021_100069727_100067445_100065175_100062918_100060673_100058440_100056220_100054012_100051817_100049634_100047464_100045306_100043161,
  100041029_100038908_100036800_100034705_100000000_100000000_100000000_100000000_100000000_100000000_100000000_100000000_100000000_100000000_100000000_100000000_100000000_100000000_100000000_100000000_100000000_100000000_100000000_100000000_100000000_100000000_100000000_100000000_100000000_100000000_100000000_100000000_100000000_100000000_100000000_100000000_100000000_100000000_100000000_100000000_100000000_100000000_100000000_100000000_100000000_100000000_100000000_100000000_100000000_100000000_100000000_100000000_100000000_100000000_100000000_100000000_100000000_100000000_100000000_100000000_100000000_100000000_100000000_100000000_100000000_100000000_100000000_100000000_100000000_100000000_100000000_100000000_100000000_100000000_100000000_100000000_100000000_100000000_100000000_100000000_100000000_100000000_100000000_100000000_100000000_100000000_100000000_100000000_100000000_100000000_100000000_100000000_100000000_100000000_100000000_100000000_100000000_100000000_100000000_100000000_100000000_100000000_100000000_100000000_100000000_100000000_100000000_100000000_100000000_100000000_100000000_100000000_100000000_100000000_100000000_100000000_100000000_100000000_100000000_100000000_100000000_100000000_100000000_100000000_100000000_100000000_100000000_100000000_100000000_100000000_100000000_100000000_100000000_100000000_100000000_100000000_100000000_100000000_100000000_100000000_100000000_100000000_100000000_100000000_100000000_100000000_100000000_100000000_100000000_100000000_100000000_100000000_100000000_100000000_100000000_100000000_100000000_100000000_100000000_100000000_100000000_100000000_100000000_100000000_100000000_100000000_100000000_100000000_100000000_100000000_100000000_100000000_100000000_100000000_100000000_100000000_100000000_100000000_100000000_100000000_100000000_100000000_100000000_100000000_100000000_100000000_100000000_100000000_100000000_100000000_100000000_100000000_100000000_100000000_100000000_100000000_100000000_100000000_100000000_100000000_100000000_100000000_100000000_100000000_100000000_100000000_100000000_100000000_100000000_100000000_100000000_100000000_100000000_100000000_100000000_100000000_100000000_100000000_100000000_100000000_100000000_100000000_100000000_100000000_100000000_100000000_100000000_100000000_100000000_100000000_100000000_100000000_100000000_100000000_100000000_100000000_100000000_100000000_100000000_100000000_100000000_100000000_100000000_100000000_100000000_100000000_100000000_100000000_100000000_100000000_100000000_100000000_100000000_100000000_100000000_100000000]

end Pmesh
