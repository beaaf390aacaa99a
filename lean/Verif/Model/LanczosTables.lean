import Verif.Model.Window

/-!
# The tables of the lanczos windows, pmesh/_window_lanczos.h

Written from the C source by a script: each group of nine digits is `10^8 (1 + v)` for an entry `v` of the table, 256 entries in
each number, the first on the left; the last number is filled up with zeros `v = 0`, which are not part of the table.
-/

namespace Pmesh

/-- `_lanczos2_vtable`, pmesh/_window_lanczos.h:8-2056: 8192 entries. -/
def lanczos2Rows : List ℕ := [
  199030507_199030495_199030459_199030398_199030313_199030204_199030070_199029912_199029730_199029524_199029293_199029039_199028759_199028456_199028128_199027776_199027400_199027000_199026575_199026126_199025652_199025155_199024633_199024087_199023516_199022922_199022303_199021660_199020992_199020300_199019584_199018844_199018080_199017291_199016478_199015640_199014779_199013893_199012983_199012048_199011089_199010107_199009099_199008068_199007012_199005932_199004828_199003699_199002547_199001370_199000168_198998943_198997693_198996419_198995121_198993798_198992451_198991080_198989685_198988265_198986821_198985353_198983861_198982344_198980803_198979238_198977649_198976036_198974398_198972736_198971049_198969339_198967604_198965845_198964062_198962254_198960422_198958566_198956686_198954782_198952853_198950900_198948923_198946922_198944896_198942846_198940772_198938674_198936551_198934405_198932234_198930039_198927819_198925576_198923308_198921016_198918699_198916359_198913994_198911605_198909192_198906755_198904293_198901808_198899298_198896764_198894205_198891623_198889016_198886385_198883730_198881051_198878347_198875619_198872867_198870091_198867291_198864467_198861618_198858745_198855848_198852927_198849981_198847012_198844018_198841000_198837958_198834892_198831802_198828687_198825548_198822385_198819198_198815987_198812752_198809492_198806208_198802900_198799568_198796212_198792832_198789427_198785999_198782546_198779069_198775568_198772043_198768494_198764920_198761323_198757701_198754055_198750385_198746691_198742973_198739231_198735464_198731674_198727859_198724020_198720157_198716270_198712359_198708424_198704465_198700481_198696474_198692442_198688386_198684307_198680203_198676075_198671923_198667747_198663546_198659322_198655074_198650801_198646505_198642184_198637840_198633471_198629078_198624661_198620220_198615756_198611267_198606754_198602216_198597655_198593070_198588461_198583828_198579170_198574489_198569784_198565054_198560301_198555524_198550722_198545897_198541047_198536174_198531276_198526355_198521409_198516440_198511446_198506429_198501387_198496322_198491232_198486119_198480982_198475820_198470635_198465425_198460192_198454935_198449654_198444348_198439019_198433666_198428289_198422888_198417463_198412014_198406541_198401044_198395523_198389979_198384410_198378817_198373201_198367561_198361896_198356208_198350496_198344760_198339000_198333216_198327408_198321576_198315721_198309841_198303938_198298011_198292060_198286085_198280086_198274063_198268016_198261946_198255852_198249733_198243591,
  198237425_198231236_198225022_198218785_198212523_198206238_198199929_198193596_198187240_198180859_198174455_198168027_198161575_198155099_198148600_198142077_198135529_198128959_198122364_198115745_198109103_198102437_198095747_198089034_198082296_198075535_198068750_198061942_198055109_198048253_198041373_198034469_198027542_198020591_198013616_198006617_197999595_197992549_197985479_197978386_197971269_197964128_197956963_197949775_197942563_197935327_197928068_197920785_197913478_197906148_197898793_197891416_197884014_197876589_197869140_197861668_197854172_197846652_197839109_197831542_197823951_197816337_197808699_197801038_197793353_197785644_197777912_197770156_197762376_197754573_197746746_197738896_197731022_197723125_197715204_197707259_197699291_197691299_197683284_197675245_197667183_197659097_197650987_197642854_197634698_197626518_197618314_197610087_197601836_197593562_197585264_197576943_197568599_197560230_197551839_197543424_197534985_197526523_197518038_197509529_197500996_197492440_197483861_197475258_197466632_197457982_197449309_197440612_197431892_197423149_197414382_197405592_197396778_197387941_197379081_197370197_197361290_197352359_197343405_197334428_197325427_197316403_197307356_197298285_197289191_197280073_197270932_197261768_197252581_197243370_197234136_197224878_197215598_197206293_197196966_197187615_197178242_197168844_197159424_197149980_197140513_197131023_197121509_197111972_197102412_197092829_197083222_197073593_197063940_197054263_197044564_197034841_197025095_197015326_197005534_196995718_196985880_196976018_196966133_196956225_196946293_196936339_196926361_196916360_196906336_196896289_196886219_196876126_196866009_196855870_196845707_196835521_196825312_196815080_196804825_196794547_196784245_196773921_196763574_196753203_196742810_196732393_196721953_196711491_196701005_196690496_196679964_196669410_196658832_196648231_196637607_196626960_196616291_196605598_196594882_196584143_196573381_196562597_196551789_196540959_196530105_196519229_196508329_196497407_196486462_196475493_196464502_196453488_196442451_196431392_196420309_196409203_196398075_196386924_196375750_196364553_196353333_196342090_196330824_196319536_196308225_196296891_196285534_196274154_196262752_196251327_196239879_196228408_196216914_196205398_196193859_196182297_196170712_196159105_196147475_196135822_196124146_196112448_196100727_196088983_196077216_196065427_196053615_196041781_196029924_196018044_196006141_195994216_195982268_195970297_195958304_195946288_195934250_195922189_195910105_195897999,
  195885870_195873719_195861545_195849348_195837129_195824887_195812622_195800335_195788026_195775694_195763339_195750962_195738563_195726141_195713696_195701229_195688739_195676227_195663692_195651135_195638556_195625954_195613329_195600682_195588013_195575321_195562607_195549870_195537111_195524329_195511525_195498699_195485850_195472979_195460086_195447170_195434231_195421271_195408288_195395283_195382255_195369205_195356133_195343038_195329921_195316782_195303621_195290437_195277231_195264003_195250752_195237479_195224184_195210867_195197527_195184165_195170781_195157375_195143946_195130496_195117023_195103528_195090011_195076471_195062910_195049326_195035720_195022092_195008442_194994769_194981075_194967358_194953620_194939859_194926076_194912271_194898444_194884595_194870724_194856831_194842915_194828978_194815019_194801037_194787034_194773009_194758961_194744892_194730800_194716687_194702551_194688394_194674215_194660014_194645790_194631545_194617278_194602989_194588678_194574345_194559991_194545614_194531216_194516795_194502353_194487889_194473403_194458895_194444365_194429814_194415240_194400645_194386028_194371390_194356729_194342047_194327343_194312617_194297869_194283100_194268309_194253496_194238661_194223805_194208927_194194027_194179105_194164162_194149197_194134211_194119203_194104173_194089121_194074048_194058954_194043837_194028699_194013539_193998358_193983155_193967931_193952685_193937417_193922128_193906817_193891485_193876131_193860756_193845359_193829941_193814501_193799040_193783557_193768052_193752527_193736979_193721411_193705820_193690209_193674576_193658921_193643245_193627548_193611829_193596089_193580328_193564545_193548741_193532915_193517068_193501200_193485310_193469399_193453467_193437513_193421538_193405542_193389525_193373486_193357426_193341345_193325242_193309119_193292974_193276807_193260620_193244411_193228182_193211931_193195658_193179365_193163051_193146715_193130358_193113980_193097581_193081161_193064719_193048257_193031773_193015269_192998743_192982196_192965629_192949040_192932430_192915799_192899147_192882474_192865780_192849065_192832329_192815572_192798794_192781995_192765175_192748334_192731473_192714590_192697686_192680762_192663817_192646850_192629863_192612855_192595826_192578776_192561706_192544614_192527502_192510369_192493215_192476040_192458845_192441628_192424391_192407134_192389855_192372556_192355236_192337895_192320533_192303151_192285748_192268324_192250880_192233415_192215929_192198423_192180896_192163348_192145780_192128191_192110582_192092952_192075301,
  192057630_192039938_192022226_192004493_191986739_191968965_191951171_191933356_191915520_191897664_191879788_191861891_191843973_191826035_191808077_191790098_191772099_191754079_191736039_191717978_191699897_191681796_191663674_191645532_191627370_191609187_191590984_191572761_191554517_191536253_191517968_191499664_191481339_191462994_191444628_191426243_191407837_191389411_191370964_191352498_191334011_191315504_191296977_191278429_191259862_191241274_191222666_191204038_191185390_191166722_191148034_191129325_191110597_191091848_191073080_191054291_191035482_191016654_190997805_190978936_190960047_190941138_190922210_190903261_190884292_190865303_190846295_190827266_190808218_190789149_190770061_190750953_190731825_190712677_190693509_190674321_190655113_190635886_190616639_190597372_190578085_190558778_190539452_190520106_190500740_190481354_190461949_190442523_190423078_190403614_190384129_190364625_190345102_190325558_190305995_190286412_190266810_190247188_190227546_190207885_190188204_190168504_190148784_190129044_190109285_190089506_190069708_190049890_190030053_190010196_189990320_189970424_189950509_189930574_189910620_189890646_189870653_189850641_189830609_189810558_189790487_189770397_189750287_189730159_189710010_189689843_189669656_189649450_189629224_189608979_189588715_189568432_189548129_189527807_189507466_189487106_189466726_189446328_189425910_189405472_189385016_189364540_189344046_189323532_189302999_189282447_189261875_189241285_189220675_189200047_189179399_189158733_189138047_189117342_189096618_189075875_189055113_189034333_189013533_188992714_188971876_188951019_188930144_188909249_188888335_188867403_188846451_188825481_188804492_188783484_188762457_188741411_188720347_188699263_188678161_188657040_188635900_188614742_188593564_188572368_188551153_188529920_188508668_188487396_188466107_188444798_188423471_188402125_188380761_188359378_188337976_188316556_188295117_188273659_188252183_188230688_188209175_188187643_188166092_188144523_188122936_188101330_188079705_188058062_188036401_188014721_187993023_187971306_187949570_187927817_187906044_187884254_187862445_187840618_187818772_187796908_187775026_187753125_187731206_187709268_187687313_187665339_187643347_187621336_187599307_187577260_187555195_187533112_187511010_187488890_187466752_187444596_187422422_187400229_187378019_187355790_187333543_187311278_187288995_187266694_187244374_187222037_187199682_187177308_187154917_187132508_187110080_187087635_187065171_187042690_187020191_186997674_186975138_186952585_186930014_186907425,
  186884819_186862194_186839551_186816891_186794213_186771517_186748803_186726071_186703322_186680555_186657770_186634967_186612147_186589309_186566453_186543579_186520688_186497779_186474852_186451908_186428946_186405966_186382969_186359954_186336922_186313872_186290804_186267719_186244616_186221496_186198358_186175203_186152030_186128840_186105632_186082407_186059164_186035904_186012626_185989331_185966019_185942689_185919342_185895977_185872595_185849196_185825780_185802346_185778894_185755426_185731940_185708437_185684917_185661379_185637824_185614252_185590663_185567056_185543433_185519792_185496134_185472459_185448766_185425057_185401330_185377587_185353826_185330048_185306253_185282441_185258612_185234766_185210903_185187023_185163126_185139212_185115281_185091333_185067368_185043386_185019387_184995372_184971339_184947290_184923223_184899140_184875040_184850923_184826790_184802639_184778472_184754288_184730087_184705870_184681635_184657384_184633116_184608832_184584531_184560213_184535878_184511527_184487159_184462775_184438374_184413956_184389522_184365071_184340603_184316119_184291619_184267102_184242568_184218018_184193452_184168868_184144269_184119653_184095020_184070372_184045706_184021025_183996326_183971612_183946881_183922134_183897370_183872590_183847794_183822982_183798153_183773308_183748447_183723569_183698675_183673765_183648839_183623896_183598938_183573963_183548972_183523965_183498941_183473902_183448846_183423775_183398687_183373583_183348464_183323328_183298176_183273008_183247824_183222624_183197408_183172176_183146928_183121664_183096385_183071089_183045777_183020450_182995107_182969747_182944372_182918981_182893575_182868152_182842714_182817260_182791790_182766304_182740803_182715285_182689753_182664204_182638640_182613060_182587464_182561853_182536226_182510583_182484925_182459251_182433562_182407857_182382136_182356400_182330649_182304882_182279099_182253301_182227487_182201658_182175813_182149953_182124078_182098187_182072281_182046359_182020422_181994469_181968502_181942518_181916520_181890506_181864477_181838433_181812373_181786298_181760208_181734103_181707982_181681846_181655695_181629529_181603348_181577151_181550939_181524713_181498471_181472214_181445942_181419654_181393352_181367035_181340703_181314355_181287993_181261616_181235223_181208816_181182394_181155957_181129504_181103037_181076555_181050059_181023547_180997020_180970479_180943923_180917352_180890766_180864165_180837550_180810920_180784275_180757615_180730941_180704252_180677548_180650829_180624096_180597348_180570586,
  180543809_180517017_180490211_180463390_180436555_180409705_180382840_180355961_180329067_180302159_180275237_180248299_180221348_180194382_180167401_180140407_180113397_180086374_180059335_180032283_180005216_179978135_179951040_179923930_179896806_179869667_179842515_179815348_179788167_179760971_179733762_179706538_179679300_179652048_179624782_179597501_179570206_179542898_179515575_179488238_179460887_179433522_179406143_179378750_179351342_179323921_179296486_179269037_179241574_179214097_179186606_179159101_179131582_179104049_179076502_179048942_179021367_178993779_178966177_178938561_178910932_178883288_178855631_178827960_178800275_178772577_178744864_178717139_178689399_178661646_178633879_178606098_178578304_178550496_178522675_178494840_178466991_178439129_178411253_178383364_178355461_178327545_178299615_178271672_178243715_178215745_178187761_178159764_178131754_178103730_178075693_178047642_178019579_177991501_177963411_177935307_177907190_177879059_177850915_177822759_177794588_177766405_177738208_177709998_177681775_177653539_177625290_177597027_177568752_177540463_177512161_177483846_177455518_177427177_177398823_177370456_177342076_177313683_177285277_177256858_177228426_177199981_177171523_177143052_177114569_177086072_177057563_177029041_177000505_176971958_176943397_176914823_176886237_176857638_176829026_176800401_176771764_176743114_176714451_176685776_176657088_176628387_176599674_176570948_176542210_176513458_176484695_176455918_176427129_176398328_176369514_176340688_176311849_176282997_176254134_176225257_176196369_176167467_176138554_176109628_176080690_176051739_176022776_175993800_175964813_175935813_175906800_175877776_175848739_175819690_175790629_175761555_175732469_175703371_175674261_175645139_175616005_175586858_175557699_175528529_175499346_175470151_175440944_175411725_175382494_175353251_175323996_175294729_175265450_175236159_175206856_175177541_175148214_175118876_175089525_175060163_175030789_175001403_174972005_174942595_174913173_174883740_174854295_174824838_174795370_174765890_174736398_174706894_174677379_174647852_174618313_174588763_174559201_174529627_174500042_174470446_174440837_174411218_174381586_174351944_174322289_174292624_174262946_174233258_174203558_174173846_174144123_174114389_174084643_174054886_174025117_173995337_173965546_173935744_173905930_173876105_173846269_173816421_173786562_173756693_173726811_173696919_173667015_173637101_173607175_173577238_173547290_173517331_173487360_173457379_173427387_173397383_173367369_173337343_173307307_173277259,
  173247201_173217131_173187051_173156960_173126858_173096745_173066621_173036486_173006340_172976184_172946017_172915839_172885650_172855450_172825240_172795019_172764787_172734544_172704291_172674027_172643752_172613467_172583171_172552865_172522548_172492220_172461882_172431533_172401173_172370803_172340423_172310032_172279631_172249219_172218796_172188363_172157920_172127466_172097002_172066528_172036043_172005548_171975043_171944527_171914001_171883464_171852917_171822361_171791793_171761216_171730628_171700030_171669422_171638804_171608176_171577537_171546889_171516230_171485561_171454882_171424193_171393494_171362785_171332066_171301337_171270598_171239849_171209090_171178321_171147542_171116753_171085954_171055146_171024327_170993499_170962661_170931813_170900955_170870088_170839210_170808323_170777426_170746520_170715603_170684677_170653742_170622796_170591841_170560876_170529902_170498918_170467925_170436922_170405909_170374887_170343855_170312814_170281763_170250703_170219633_170188554_170157465_170126367_170095260_170064143_170033017_170001881_169970736_169939582_169908418_169877245_169846063_169814871_169783671_169752461_169721241_169690013_169658775_169627528_169596272_169565007_169533733_169502449_169471157_169439855_169408545_169377225_169345896_169314558_169283211_169251855_169220491_169189117_169157734_169126342_169094942_169063532_169032114_169000686_168969250_168937805_168906351_168874889_168843417_168811937_168780448_168748950_168717443_168685928_168654404_168622872_168591330_168559780_168528222_168496654_168465078_168433494_168401901_168370299_168338689_168307070_168275443_168243807_168212163_168180510_168148849_168117179_168085501_168053814_168022119_167990416_167958704_167926984_167895256_167863519_167831774_167800021_167768259_167736489_167704711_167672925_167641130_167609327_167577517_167545697_167513870_167482035_167450191_167418339_167386480_167354612_167322736_167290852_167258960_167227060_167195152_167163236_167131312_167099380_167067440_167035493_167003537_166971573_166939602_166907623_166875635_166843640_166811638_166779627_166747609_166715582_166683548_166651507_166619457_166587400_166555335_166523263_166491183_166459095_166427000_166394897_166362786_166330668_166298542_166266409_166234268_166202120_166169964_166137800_166105629_166073451_166041265_166009072_165976872_165944664_165912448_165880225_165847995_165815758_165783513_165751261_165719002_165686735_165654461_165622180_165589892_165557596_165525293_165492983_165460666_165428342_165396011_165363672_165331326_165298974_165266614,
  165234247_165201873_165169492_165137104_165104710_165072308_165039899_165007483_164975060_164942631_164910194_164877751_164845300_164812843_164780379_164747908_164715431_164682946_164650455_164617957_164585452_164552941_164520423_164487898_164455366_164422828_164390283_164357732_164325174_164292609_164260038_164227460_164194875_164162284_164129687_164097083_164064472_164031855_163999232_163966602_163933965_163901323_163868673_163836018_163803356_163770688_163738013_163705332_163672645_163639951_163607251_163574545_163541833_163509114_163476389_163443658_163410921_163378178_163345428_163312672_163279911_163247143_163214369_163181589_163148803_163116010_163083212_163050408_163017598_162984782_162951959_162919131_162886297_162853457_162820611_162787760_162754902_162722038_162689169_162656294_162623413_162590526_162557633_162524735_162491831_162458921_162426006_162393084_162360158_162327225_162294287_162261343_162228393_162195438_162162477_162129511_162096539_162063562_162030579_161997591_161964597_161931597_161898592_161865582_161832566_161799545_161766518_161733486_161700449_161667406_161634358_161601305_161568246_161535182_161502113_161469038_161435958_161402873_161369783_161336687_161303587_161270481_161237370_161204254_161171132_161138006_161104875_161071738_161038596_161005450_160972298_160939141_160905980_160872813_160839641_160806465_160773283_160740097_160706905_160673709_160640508_160607302_160574091_160540875_160507655_160474429_160441199_160407965_160374725_160341481_160308232_160274978_160241719_160208456_160175188_160141916_160108639_160075357_160042071_160008780_159975485_159942185_159908880_159875571_159842258_159808940_159775617_159742291_159708959_159675623_159642283_159608939_159575590_159542236_159508879_159475517_159442150_159408780_159375405_159342026_159308642_159275255_159241863_159208467_159175066_159141662_159108253_159074841_159041424_159008003_158974578_158941149_158907715_158874278_158840837_158807391_158773942_158740489_158707031_158673570_158640105_158606636_158573163_158539686_158506205_158472720_158439232_158405740_158372243_158338743_158305240_158271732_158238221_158204706_158171187_158137665_158104138_158070609_158037075_158003538_157969997_157936453_157902905_157869353_157835798_157802240_157768677_157735112_157701542_157667970_157634393_157600814_157567231_157533644_157500054_157466461_157432864_157399264_157365661_157332054_157298444_157264830_157231214_157197594_157163970_157130344_157096714_157063081_157029445_156995806_156962163_156928518_156894869_156861217_156827562_156793904,
  156760243_156726579_156692912_156659241_156625568_156591892_156558213_156524531_156490845_156457157_156423466_156389773_156356076_156322376_156288674_156254968_156221260_156187549_156153835_156120119_156086400_156052678_156018953_155985225_155951495_155917762_155884027_155850288_155816548_155782804_155749058_155715309_155681558_155647804_155614048_155580289_155546528_155512764_155478998_155445229_155411457_155377684_155343907_155310129_155276348_155242565_155208779_155174991_155141201_155107408_155073613_155039816_155006016_154972214_154938410_154904604_154870796_154836985_154803172_154769357_154735540_154701721_154667899_154634076_154600250_154566423_154532593_154498761_154464928_154431092_154397254_154363414_154329573_154295729_154261884_154228036_154194187_154160336_154126482_154092628_154058771_154024912_153991052_153957189_153923325_153889460_153855592_153821723_153787852_153753979_153720105_153686229_153652351_153618472_153584591_153550709_153516825_153482939_153449052_153415163_153381272_153347381_153313487_153279592_153245696_153211798_153177899_153143999_153110097_153076193_153042288_153008382_152974475_152940566_152906656_152872744_152838831_152804917_152771002_152737086_152703168_152669249_152635329_152601407_152567485_152533561_152499636_152465711_152431784_152397855_152363926_152329996_152296065_152262133_152228199_152194265_152160330_152126393_152092456_152058518_152024579_151990639_151956698_151922756_151888814_151854870_151820926_151786981_151753035_151719089_151685141_151651193_151617244_151583294_151549344_151515393_151481441_151447489_151413536_151379582_151345628_151311673_151277717_151243761_151209805_151175848_151141890_151107932_151073973_151040014_151006054_150972094_150938134_150904173_150870211_150836249_150802287_150768325_150734362_150700399_150666435_150632472_150598508_150564543_150530579_150496614_150462649_150428683_150394718_150360752_150326787_150292821_150258855_150224888_150190922_150156956_150122989_150089023_150055056_150021089_149987123_149953156_149919190_149885223_149851256_149817290_149783324_149749357_149715391_149681425_149647459_149613493_149579528_149545562_149511597_149477632_149443667_149409702_149375738_149341774_149307810_149273847_149239884_149205921_149171958_149137996_149104035_149070073_149036112_149002152_148968192_148934232_148900273_148866314_148832356_148798398_148764441_148730484_148696528_148662573_148628618_148594663_148560710_148526757_148492804_148458852_148424901_148390951_148357001_148323052_148289104_148255156_148221209_148187263_148153318_148119374,
  148085430_148051487_148017546_147983605_147949664_147915725_147881787_147847849_147813913_147779977_147746043_147712109_147678177_147644245_147610314_147576385_147542457_147508529_147474603_147440678_147406754_147372831_147338909_147304988_147271069_147237151_147203233_147169318_147135403_147101490_147067578_147033667_146999757_146965849_146931942_146898036_146864132_146830229_146796328_146762428_146728529_146694632_146660736_146626842_146592949_146559058_146525168_146491279_146457392_146423507_146389623_146355741_146321861_146287982_146254104_146220228_146186354_146152482_146118611_146084742_146050875_146017009_145983145_145949283_145915422_145881564_145847707_145813852_145779999_145746147_145712298_145678450_145644604_145610760_145576918_145543078_145509240_145475404_145441569_145407737_145373907_145340078_145306252_145272428_145238606_145204786_145170968_145137152_145103338_145069526_145035716_145001909_144968104_144934301_144900500_144866701_144832905_144799110_144765318_144731529_144697741_144663956_144630173_144596393_144562615_144528839_144495066_144461295_144427526_144393760_144359996_144326234_144292476_144258719_144224965_144191214_144157465_144123718_144089974_144056233_144022494_143988758_143955024_143921293_143887565_143853839_143820116_143786396_143752678_143718963_143685251_143651541_143617834_143584130_143550429_143516730_143483034_143449342_143415651_143381964_143348280_143314598_143280919_143247244_143213571_143179901_143146234_143112570_143078909_143045250_143011595_142977943_142944294_142910648_142877005_142843365_142809728_142776094_142742464_142708836_142675212_142641590_142607972_142574357_142540746_142507137_142473532_142439930_142406331_142372735_142339143_142305554_142271968_142238386_142204807_142171231_142137659_142104090_142070524_142036962_142003403_141969848_141936296_141902748_141869203_141835661_141802123_141768589_141735058_141701530_141668007_141634486_141600970_141567457_141533947_141500441_141466939_141433440_141399945_141366454_141332967_141299483_141266003_141232526_141199054_141165585_141132120_141098659_141065201_141031747_140998298_140964852_140931410_140897971_140864537_140831106_140797680_140764257_140730839_140697424_140664013_140630606_140597204_140563805_140530410_140497019_140463633_140430250_140396872_140363497_140330127_140296761_140263399_140230041_140196687_140163338_140129992_140096651_140063314_140029981_139996653_139963329_139930009_139896693_139863382_139830075_139796772_139763474_139730180_139696890_139663605_139630324_139597047_139563775_139530508_139497245,
  139463986_139430732_139397482_139364237_139330996_139297760_139264528_139231301_139198078_139164860_139131647_139098438_139065234_139032035_138998840_138965650_138932464_138899283_138866107_138832936_138799769_138766607_138733450_138700298_138667150_138634007_138600869_138567736_138534608_138501484_138468366_138435252_138402143_138369039_138335940_138302846_138269757_138236673_138203594_138170519_138137450_138104386_138071327_138038273_138005224_137972180_137939141_137906107_137873078_137840054_137807036_137774022_137741014_137708011_137675013_137642021_137609033_137576051_137543074_137510102_137477136_137444174_137411219_137378268_137345323_137312383_137279448_137246519_137213595_137180676_137147763_137114855_137081953_137049056_137016165_136983279_136950398_136917523_136884654_136851790_136818931_136786078_136753231_136720389_136687553_136654722_136621897_136589078_136556264_136523456_136490653_136457856_136425065_136392280_136359500_136326726_136293958_136261195_136228438_136195687_136162942_136130202_136097469_136064741_136032019_135999303_135966592_135933888_135901190_135868497_135835810_135803129_135770455_135737786_135705123_135672466_135639815_135607170_135574531_135541898_135509271_135476650_135444035_135411427_135378824_135346228_135313637_135281053_135248475_135215903_135183337_135150778_135118224_135085677_135053136_135020601_134988073_134955550_134923034_134890525_134858021_134825524_134793033_134760549_134728071_134695599_134663134_134630675_134598222_134565776_134533336_134500903_134468476_134436055_134403642_134371234_134338833_134306439_134274051_134241669_134209294_134176926_134144564_134112209_134079860_134047518_134015183_133982854_133950532_133918217_133885908_133853606_133821311_133789022_133756740_133724465_133692196_133659935_133627680_133595432_133563190_133530956_133498728_133466507_133434293_133402086_133369885_133337692_133305505_133273326_133241153_133208987_133176828_133144676_133112531_133080393_133048262_133016138_132984021_132951911_132919808_132887712_132855624_132823542_132791467_132759400_132727339_132695286_132663240_132631201_132599169_132567144_132535127_132503116_132471113_132439117_132407129_132375147_132343173_132311206_132279246_132247294_132215349_132183411_132151481_132119558_132087642_132055734_132023833_131991940_131960053_131928175_131896303_131864440_131832583_131800734_131768893_131737059_131705232_131673413_131641602_131609798_131578001_131546212_131514431_131482658_131450891_131419133_131387382_131355639_131323903_131292175_131260455_131228742_131197037_131165340,
  131133650_131101969_131070294_131038628_131006969_130975319_130943676_130912040_130880413_130848793_130817181_130785577_130753981_130722393_130690813_130659240_130627676_130596119_130564570_130533029_130501496_130469971_130438454_130406945_130375444_130343951_130312466_130280989_130249520_130218059_130186606_130155162_130123725_130092296_130060876_130029463_129998059_129966663_129935275_129903895_129872524_129841160_129809805_129778458_129747119_129715788_129684466_129653152_129621846_129590549_129559259_129527978_129496706_129465441_129434185_129402938_129371698_129340467_129309245_129278030_129246825_129215627_129184438_129153258_129122086_129090922_129059767_129028620_128997482_128966352_128935231_128904119_128873014_128841919_128810832_128779753_128748684_128717622_128686570_128655526_128624490_128593463_128562445_128531436_128500435_128469443_128438459_128407484_128376518_128345561_128314612_128283673_128252742_128221819_128190906_128160001_128129105_128098218_128067340_128036470_128005609_127974758_127943915_127913081_127882256_127851439_127820632_127789834_127759044_127728263_127697492_127666729_127635976_127605231_127574495_127543769_127513051_127482342_127451643_127420952_127390271_127359598_127328935_127298281_127267636_127237000_127206373_127175755_127145147_127114547_127083957_127053376_127022804_126992241_126961688_126931144_126900609_126870083_126839566_126809059_126778561_126748072_126717593_126687123_126656662_126626211_126595769_126565336_126534912_126504498_126474094_126443698_126413313_126382936_126352569_126322212_126291863_126261525_126231196_126200876_126170566_126140265_126109974_126079692_126049420_126019157_125988904_125958660_125928426_125898202_125867987_125837782_125807586_125777400_125747224_125717057_125686900_125656753_125626615_125596487_125566368_125536260_125506161_125476072_125445992_125415922_125385862_125355812_125325772_125295741_125265720_125235709_125205708_125175716_125145735_125115763_125085801_125055849_125025907_124995975_124966052_124936140_124906237_124876345_124846462_124816589_124786727_124756874_124727031_124697198_124667375_124637562_124607760_124577967_124548184_124518411_124488649_124458896_124429153_124399421_124369699_124339986_124310284_124280592_124250910_124221239_124191577_124161926_124132285_124102654_124073033_124043422_124013822_123984231_123954651_123925082_123895522_123865973_123836434_123806905_123777387_123747879_123718381_123688894_123659417_123629950_123600494_123571047_123541612_123512187_123482772_123453367_123423973_123394589_123365216_123335853,
  123306501_123277159_123247827_123218506_123189196_123159896_123130606_123101327_123072059_123042801_123013554_122984317_122955091_122925875_122896670_122867475_122838291_122809118_122779955_122750803_122721662_122692531_122663411_122634301_122605202_122576114_122547037_122517970_122488914_122459869_122430834_122401810_122372797_122343795_122314803_122285822_122256852_122227893_122198945_122170007_122141080_122112164_122083259_122054365_122025482_121996609_121967747_121938897_121910057_121881228_121852410_121823603_121794806_121766021_121737247_121708483_121679731_121650990_121622259_121593540_121564831_121536134_121507447_121478772_121450108_121421454_121392812_121364181_121335561_121306952_121278354_121249767_121221192_121192627_121164074_121135531_121107000_121078480_121049971_121021474_120992987_120964512_120936048_120907595_120879153_120850723_120822304_120793896_120765499_120737113_120708739_120680376_120652025_120623684_120595355_120567038_120538731_120510436_120482153_120453880_120425619_120397370_120369131_120340905_120312689_120284485_120256292_120228111_120199941_120171783_120143636_120115500_120087376_120059264_120031163_120003073_119974995_119946928_119918873_119890830_119862798_119834777_119806768_119778771_119750785_119722810_119694848_119666897_119638957_119611029_119583113_119555208_119527315_119499434_119471564_119443706_119415859_119388024_119360201_119332390_119304590_119276802_119249026_119221261_119193508_119165767_119138037_119110320_119082614_119054920_119027237_118999567_118971908_118944261_118916626_118889003_118861391_118833791_118806203_118778627_118751063_118723511_118695971_118668442_118640925_118613421_118585928_118558447_118530978_118503521_118476076_118448643_118421221_118393812_118366415_118339029_118311656_118284295_118256945_118229608_118202283_118174969_118147668_118120379_118093102_118065837_118038584_118011343_117984114_117956897_117929692_117902500_117875319_117848151_117820994_117793850_117766718_117739598_117712491_117685395_117658312_117631241_117604182_117577135_117550100_117523078_117496068_117469070_117442084_117415111_117388149_117361200_117334264_117307339_117280427_117253527_117226640_117199764_117172901_117146051_117119212_117092386_117065573_117038771_117011982_116985206_116958442_116931690_116904950_116878223_116851509_116824806_116798116_116771439_116744774_116718121_116691481_116664853_116638238_116611635_116585045_116558467_116531902_116505349_116478809_116452281_116425765_116399263_116372772_116346295_116319829_116293377_116266937_116240509_116214094_116187692,
  116161302_116134925_116108560_116082208_116055869_116029542_116003228_115976926_115950637_115924361_115898098_115871847_115845608_115819383_115793170_115766970_115740782_115714607_115688445_115662296_115636159_115610036_115583924_115557826_115531740_115505667_115479607_115453560_115427525_115401504_115375495_115349498_115323515_115297544_115271587_115245642_115219710_115193790_115167884_115141990_115116110_115090242_115064387_115038545_115012716_114986899_114961096_114935306_114909528_114883763_114858012_114832273_114806547_114780834_114755134_114729447_114703773_114678112_114652464_114626829_114601207_114575598_114550002_114524419_114498849_114473292_114447748_114422217_114396699_114371194_114345702_114320224_114294758_114269305_114243866_114218440_114193026_114167626_114142239_114116865_114091504_114066156_114040822_114015500_113990192_113964897_113939615_113914346_113889090_113863848_113838619_113813403_113788200_113763010_113737833_113712670_113687520_113662383_113637260_113612149_113587052_113561968_113536898_113511840_113486796_113461765_113436748_113411744_113386753_113361775_113336811_113311860_113286922_113261998_113237087_113212189_113187305_113162433_113137576_113112731_113087901_113063083_113038279_113013488_112988710_112963946_112939196_112914459_112889735_112865024_112840327_112815644_112790974_112766317_112741674_112717044_112692428_112667825_112643235_112618660_112594097_112569548_112545013_112520491_112495982_112471487_112447006_112422538_112398084_112373643_112349215_112324802_112300401_112276015_112251642_112227282_112202936_112178604_112154285_112129980_112105688_112081410_112057146_112032895_112008658_111984434_111960224_111936028_111911845_111887676_111863520_111839379_111815251_111791136_111767035_111742948_111718875_111694815_111670769_111646737_111622718_111598713_111574722_111550744_111526781_111502830_111478894_111454972_111431063_111407168_111383286_111359419_111335565_111311725_111287898_111264086_111240287_111216502_111192731_111168974_111145230_111121500_111097784_111074082_111050394_111026719_111003059_110979412_110955779_110932160_110908555_110884963_110861386_110837822_110814272_110790736_110767214_110743706_110720212_110696731_110673265_110649812_110626374_110602949_110579538_110556141_110532758_110509389_110486034_110462693_110439366_110416053_110392754_110369468_110346197_110322940_110299696_110276467_110253252_110230050_110206863_110183689_110160530_110137385_110114253_110091136_110068033_110044943_110021868_109998807_109975760_109952727_109929708_109906703_109883712_109860735,
  109837772_109814823_109791888_109768968_109746061_109723169_109700291_109677427_109654576_109631740_109608919_109586111_109563317_109540538_109517772_109495021_109472284_109449561_109426852_109404158_109381477_109358811_109336159_109313521_109290897_109268287_109245692_109223111_109200544_109177991_109155452_109132928_109110418_109087922_109065440_109042972_109020519_108998080_108975655_108953244_108930848_108908466_108886098_108863744_108841405_108819079_108796768_108774472_108752190_108729921_108707668_108685428_108663203_108640992_108618796_108596613_108574445_108552292_108530152_108508027_108485916_108463820_108441738_108419670_108397617_108375578_108353553_108331543_108309547_108287565_108265598_108243645_108221706_108199782_108177872_108155977_108134095_108112229_108090376_108068539_108046715_108024906_108003111_107981331_107959565_107937814_107916077_107894354_107872646_107850952_107829273_107807608_107785957_107764321_107742700_107721092_107699500_107677922_107656358_107634809_107613274_107591753_107570247_107548756_107527279_107505817_107484369_107462935_107441516_107420112_107398722_107377347_107355986_107334639_107313307_107291990_107270687_107249399_107228125_107206866_107185621_107164391_107143175_107121974_107100787_107079615_107058458_107037315_107016186_106995073_106973973_106952889_106931819_106910763_106889722_106868696_106847684_106826687_106805704_106784736_106763783_106742844_106721920_106701010_106680116_106659235_106638369_106617518_106596682_106575860_106555053_106534260_106513482_106492719_106471970_106451236_106430517_106409812_106389122_106368446_106347785_106327139_106306508_106285891_106265289_106244701_106224129_106203570_106183027_106162498_106141984_106121485_106101000_106080530_106060075_106039634_106019208_105998797_105978400_105958019_105937652_105917299_105896962_105876639_105856330_105836037_105815758_105795494_105775245_105755010_105734790_105714585_105694395_105674219_105654059_105633912_105613781_105593664_105573563_105553476_105533403_105513346_105493303_105473275_105453262_105433263_105413279_105393310_105373356_105353417_105333492_105313583_105293688_105273807_105253942_105234091_105214256_105194435_105174628_105154837_105135060_105115299_105095552_105075820_105056102_105036400_105016712_104997039_104977381_104957738_104938109_104918496_104898897_104879313_104859744_104840190_104820651_104801126_104781617_104762122_104742642_104723177_104703726_104684291_104664870_104645465_104626074_104606698_104587337_104567991_104548659_104529343_104510041_104490755_104471483_104452226,
  104432984_104413756_104394544_104375347_104356164_104336997_104317844_104298706_104279583_104260475_104241382_104222303_104203240_104184192_104165158_104146139_104127136_104108147_104089173_104070214_104051270_104032341_104013427_103994527_103975643_103956773_103937919_103919079_103900255_103881445_103862650_103843870_103825105_103806355_103787620_103768900_103750195_103731505_103712829_103694169_103675524_103656893_103638278_103619677_103601092_103582521_103563965_103545425_103526899_103508388_103489892_103471411_103452945_103434494_103416058_103397637_103379231_103360840_103342464_103324103_103305757_103287426_103269110_103250808_103232522_103214251_103195995_103177753_103159527_103141316_103123119_103104938_103086772_103068620_103050484_103032363_103014256_102996165_102978089_102960027_102941981_102923949_102905933_102887932_102869945_102851974_102834018_102816076_102798150_102780238_102762342_102744461_102726594_102708743_102690907_102673086_102655279_102637488_102619712_102601950_102584204_102566473_102548757_102531056_102513370_102495699_102478042_102460401_102442775_102425164_102407568_102389987_102372421_102354870_102337335_102319814_102302308_102284817_102267341_102249881_102232435_102215004_102197589_102180188_102162802_102145432_102128076_102110736_102093411_102076100_102058805_102041525_102024259_102007009_101989774_101972554_101955349_101938159_101920984_101903824_101886679_101869549_101852434_101835334_101818249_101801180_101784125_101767085_101750061_101733051_101716057_101699077_101682113_101665164_101648229_101631310_101614406_101597517_101580643_101563784_101546940_101530111_101513297_101496498_101479715_101462946_101446192_101429454_101412730_101396022_101379328_101362650_101345986_101329338_101312705_101296087_101279483_101262895_101246322_101229764_101213222_101196694_101180181_101163683_101147200_101130733_101114280_101097843_101081420_101065013_101048620_101032243_101015881_100999534_100983201_100966884_100950582_100934295_100918023_100901767_100885525_100869298_100853086_100836890_100820708_100804541_100788390_100772253_100756132_100740026_100723934_100707858_100691797_100675751_100659720_100643704_100627703_100611717_100595746_100579790_100563849_100547923_100532013_100516117_100500236_100484371_100468520_100452685_100436865_100421059_100405269_100389494_100373733_100357988_100342258_100326543_100310843_100295158_100279488_100263833_100248193_100232568_100216958_100201364_100185784_100170219_100154670_100139135_100123615_100108111_100092621_100077147_100061687_100046243_100030814_100015399,
  100000000_099984616_099969246_099953892_099938553_099923229_099907920_099892626_099877347_099862083_099846834_099831600_099816381_099801177_099785988_099770814_099755655_099740511_099725382_099710268_099695169_099680086_099665017_099649963_099634924_099619901_099604892_099589898_099574919_099559956_099545007_099530073_099515155_099500251_099485362_099470488_099455630_099440786_099425957_099411144_099396345_099381561_099366793_099352039_099337300_099322577_099307868_099293174_099278495_099263832_099249183_099234549_099219930_099205326_099190738_099176164_099161605_099147061_099132532_099118018_099103519_099089035_099074566_099060112_099045673_099031249_099016840_099002446_098988067_098973702_098959353_098945019_098930699_098916395_098902106_098887831_098873572_098859327_098845097_098830883_098816683_098802498_098788328_098774174_098760034_098745909_098731799_098717703_098703623_098689558_098675508_098661472_098647452_098633446_098619456_098605480_098591519_098577574_098563643_098549727_098535826_098521940_098508068_098494212_098480371_098466544_098452733_098438936_098425154_098411387_098397635_098383898_098370176_098356469_098342777_098329099_098315437_098301789_098288156_098274538_098260935_098247347_098233774_098220216_098206672_098193143_098179630_098166131_098152647_098139178_098125724_098112284_098098860_098085450_098072055_098058675_098045310_098031960_098018625_098005304_097991998_097978708_097965432_097952170_097938924_097925693_097912476_097899274_097886087_097872915_097859758_097846615_097833488_097820375_097807277_097794194_097781125_097768072_097755033_097742009_097729000_097716006_097703026_097690061_097677112_097664176_097651256_097638351_097625460_097612584_097599723_097586876_097574045_097561228_097548426_097535639_097522866_097510108_097497365_097484637_097471924_097459225_097446541_097433872_097421218_097408578_097395953_097383343_097370748_097358167_097345601_097333050_097320513_097307992_097295485_097282993_097270515_097258052_097245604_097233171_097220752_097208348_097195959_097183584_097171225_097158880_097146549_097134233_097121932_097109646_097097375_097085118_097072875_097060648_097048435_097036237_097024053_097011884_096999730_096987591_096975466_096963356_096951260_096939179_096927113_096915061_096903025_096891002_096878995_096867002_096855023_096843060_096831110_096819176_096807256_096795351_096783460_096771584_096759723_096747876_096736044_096724227_096712424_096700636_096688862_096677103_096665358_096653628_096641913_096630212_096618526_096606855_096595198_096583555_096571927_096560314,
  96548715_096537131_096525561_096514006_096502466_096490940_096479428_096467932_096456449_096444981_096433528_096422089_096410665_096399256_096387860_096376480_096365114_096353762_096342425_096331102_096319794_096308501_096297222_096285957_096274707_096263471_096252250_096241044_096229852_096218674_096207511_096196362_096185228_096174108_096163002_096151912_096140835_096129773_096118726_096107692_096096674_096085670_096074680_096063704_096052743_096041797_096030865_096019947_096009044_095998155_095987281_095976421_095965575_095954744_095943927_095933124_095922336_095911563_095900803_095890058_095879328_095868612_095857910_095847222_095836549_095825891_095815246_095804616_095794000_095783399_095772812_095762239_095751681_095741137_095730607_095720092_095709591_095699104_095688632_095678173_095667730_095657300_095646885_095636484_095626097_095615725_095605367_095595023_095584693_095574378_095564077_095553790_095543518_095533260_095523016_095512786_095502570_095492369_095482182_095472009_095461851_095451707_095441576_095431461_095421359_095411271_095401198_095391139_095381094_095371064_095361047_095351045_095341057_095331083_095321123_095311178_095301246_095291329_095281426_095271537_095261662_095251802_095241955_095232123_095222305_095212501_095202711_095192935_095183173_095173426_095163692_095153973_095144268_095134576_095124899_095115237_095105588_095095953_095086332_095076726_095067133_095057555_095047990_095038440_095028904_095019381_095009873_095000379_094990899_094981433_094971981_094962543_094953119_094943709_094934313_094924931_094915563_094906209_094896869_094887543_094878231_094868933_094859649_094850379_094841123_094831881_094822653_094813439_094804239_094795053_094785880_094776722_094767578_094758447_094749331_094740228_094731139_094722065_094713004_094703957_094694924_094685905_094676899_094667908_094658931_094649967_094641017_094632081_094623159_094614251_094605357_094596477_094587610_094578758_094569919_094561094_094552283_094543485_094534702_094525932_094517176_094508434_094499706_094490991_094482291_094473604_094464931_094456272_094447626_094438994_094430376_094421772_094413182_094404605_094396042_094387493_094378957_094370436_094361928_094353434_094344953_094336486_094328033_094319594_094311168_094302756_094294358_094285973_094277602_094269245_094260902_094252572_094244256_094235953_094227664_094219389_094211128_094202880_094194645_094186425_094178218_094170024_094161845_094153678_094145526_094137387_094129262_094121150_094113052_094104967_094096896_094088839_094080795_094072765_094064748_094056745,
  94048755_094040779_094032817_094024868_094016932_094009010_094001102_093993207_093985326_093977458_093969604_093961763_093953936_093946122_093938321_093930534_093922761_093915001_093907255_093899521_093891802_093884096_093876403_093868724_093861058_093853406_093845767_093838141_093830529_093822930_093815345_093807773_093800214_093792669_093785138_093777619_093770114_093762622_093755144_093747679_093740228_093732789_093725364_093717953_093710555_093703170_093695798_093688440_093681095_093673763_093666445_093659140_093651848_093644570_093637304_093630052_093622814_093615588_093608376_093601177_093593992_093586819_093579660_093572514_093565381_093558262_093551155_093544062_093536982_093529916_093522862_093515822_093508795_093501781_093494780_093487793_093480818_093473857_093466909_093459974_093453052_093446143_093439247_093432365_093425496_093418639_093411796_093404966_093398149_093391345_093384555_093377777_093371012_093364261_093357522_093350797_093344084_093337385_093330699_093324025_093317365_093310718_093304084_093297463_093290854_093284259_093277677_093271108_093264552_093258009_093251478_093244961_093238457_093231965_093225487_093219021_093212569_093206129_093199703_093193289_093186888_093180500_093174125_093167763_093161414_093155077_093148754_093142443_093136146_093129861_093123589_093117330_093111083_093104850_093098629_093092422_093086227_093080045_093073875_093067719_093061575_093055444_093049326_093043221_093037128_093031048_093024981_093018927_093012885_093006857_093000841_092994837_092988847_092982869_092976904_092970952_092965012_092959085_092953171_092947269_092941380_092935504_092929640_092923790_092917951_092912126_092906313_092900513_092894725_092888950_092883188_092877438_092871701_092865976_092860264_092854565_092848878_092843204_092837542_092831893_092826257_092820633_092815022_092809423_092803836_092798263_092792702_092787153_092781617_092776093_092770582_092765083_092759597_092754123_092748662_092743214_092737777_092732353_092726942_092721543_092716157_092710783_092705421_092700072_092694735_092689411_092684099_092678800_092673512_092668238_092662975_092657725_092652488_092647263_092642050_092636849_092631661_092626485_092621322_092616170_092611031_092605905_092600791_092595689_092590599_092585522_092580457_092575404_092570363_092565335_092560319_092555315_092550323_092545344_092540377_092535422_092530480_092525549_092520631_092515725_092510831_092505949_092501080_092496223_092491378_092486545_092481724_092476915_092472119_092467334_092462562_092457802_092453054_092448318_092443594_092438882,
  92434183_092429495_092424820_092420156_092415505_092410866_092406239_092401623_092397020_092392429_092387850_092383283_092378728_092374185_092369654_092365135_092360628_092356133_092351650_092347178_092342719_092338272_092333837_092329413_092325002_092320603_092316215_092311839_092307476_092303124_092298784_092294456_092290140_092285835_092281543_092277262_092272994_092268737_092264492_092260258_092256037_092251828_092247630_092243444_092239270_092235107_092230957_092226818_092222691_092218576_092214472_092210381_092206301_092202233_092198176_092194131_092190098_092186077_092182067_092178070_092174083_092170109_092166146_092162195_092158255_092154327_092150411_092146507_092142614_092138732_092134863_092131005_092127158_092123324_092119500_092115689_092111889_092108100_092104323_092100558_092096804_092093062_092089331_092085612_092081905_092078209_092074524_092070851_092067189_092063539_092059901_092056274_092052658_092049054_092045461_092041880_092038310_092034752_092031205_092027670_092024145_092020633_092017132_092013642_092010163_092006696_092003241_091999796_091996363_091992942_091989531_091986133_091982745_091979369_091976004_091972650_091969308_091965977_091962657_091959349_091956052_091952766_091949491_091946228_091942976_091939735_091936506_091933287_091930080_091926884_091923700_091920526_091917364_091914213_091911073_091907944_091904826_091901720_091898625_091895540_091892467_091889406_091886355_091883315_091880287_091877269_091874263_091871268_091868284_091865311_091862349_091859398_091856458_091853529_091850611_091847704_091844809_091841924_091839050_091836187_091833336_091830495_091827665_091824847_091822039_091819242_091816456_091813681_091810917_091808164_091805422_091802691_091799970_091797261_091794562_091791875_091789198_091786532_091783877_091781233_091778600_091775977_091773365_091770765_091768175_091765595_091763027_091760470_091757923_091755387_091752862_091750347_091747844_091745351_091742868_091740397_091737936_091735486_091733047_091730619_091728201_091725794_091723397_091721011_091718636_091716272_091713918_091711575_091709243_091706921_091704610_091702309_091700019_091697740_091695471_091693213_091690966_091688729_091686502_091684286_091682081_091679886_091677702_091675529_091673365_091671213_091669071_091666939_091664818_091662708_091660607_091658518_091656439_091654370_091652312_091650264_091648227_091646200_091644183_091642177_091640181_091638196_091636221_091634257_091632302_091630359_091628425_091626502_091624590_091622687_091620795_091618914_091617042_091615181_091613330_091611490,
  91609660_091607840_091606030_091604231_091602442_091600663_091598894_091597136_091595388_091593650_091591922_091590205_091588497_091586800_091585113_091583436_091581770_091580113_091578467_091576831_091575205_091573589_091571983_091570388_091568802_091567227_091565661_091564106_091562561_091561026_091559501_091557986_091556481_091554986_091553501_091552026_091550561_091549106_091547661_091546226_091544801_091543387_091541982_091540587_091539202_091537826_091536461_091535106_091533761_091532425_091531100_091529784_091528479_091527183_091525897_091524621_091523355_091522098_091520852_091519615_091518388_091517171_091515964_091514767_091513579_091512401_091511233_091510075_091508926_091507788_091506659_091505539_091504430_091503330_091502240_091501160_091500089_091499028_091497977_091496935_091495903_091494881_091493869_091492866_091491872_091490889_091489915_091488950_091487996_091487050_091486115_091485189_091484272_091483365_091482468_091481580_091480702_091479834_091478975_091478125_091477285_091476454_091475633_091474822_091474020_091473227_091472444_091471670_091470906_091470151_091469406_091468670_091467944_091467227_091466519_091465821_091465132_091464452_091463782_091463121_091462470_091461828_091461195_091460572_091459958_091459353_091458758_091458172_091457595_091457028_091456469_091455921_091455381_091454850_091454329_091453817_091453315_091452821_091452337_091451862_091451396_091450939_091450492_091450054_091449625_091449205_091448794_091448392_091448000_091447616_091447242_091446877_091446521_091446174_091445836_091445507_091445188_091444877_091444575_091444283_091443999_091443725_091443459_091443203_091442956_091442717_091442488_091442267_091442056_091441854_091441660_091441475_091441300_091441133_091440975_091440827_091440687_091440556_091440434_091440320_091440216_091440121_091440034_091439956_091439887_091439827_091439776_091439734_091439700_091439675_091439660_091439652_091439654_091439664_091439684_091439712_091439748_091439794_091439848_091439911_091439982_091440063_091440152_091440249_091440356_091440471_091440595_091440727_091440868_091441018_091441176_091441343_091441519_091441703_091441896_091442097_091442307_091442526_091442753_091442989_091443233_091443486_091443748_091444018_091444296_091444583_091444879_091445183_091445495_091445816_091446146_091446484_091446830_091447185_091447548_091447920_091448300_091448689_091449086_091449491_091449905_091450327_091450757_091451196_091451644_091452099_091452563_091453036_091453516_091454005_091454503_091455008_091455522_091456044_091456575_091457114,
  91457661_091458216_091458779_091459351_091459931_091460519_091461116_091461720_091462333_091462954_091463584_091464221_091464867_091465520_091466182_091466852_091467530_091468217_091468911_091469613_091470324_091471043_091471770_091472504_091473247_091473998_091474757_091475525_091476300_091477083_091477874_091478673_091479480_091480296_091481119_091481950_091482789_091483636_091484491_091485354_091486225_091487104_091487991_091488885_091489788_091490698_091491617_091492543_091493477_091494419_091495369_091496327_091497292_091498266_091499247_091500236_091501233_091502237_091503250_091504270_091505298_091506334_091507377_091508428_091509487_091510554_091511628_091512710_091513800_091514898_091516003_091517116_091518237_091519365_091520501_091521644_091522795_091523954_091525121_091526295_091527476_091528666_091529863_091531067_091532279_091533499_091534726_091535960_091537203_091538452_091539710_091540975_091542247_091543527_091544814_091546109_091547411_091548721_091550038_091551363_091552695_091554034_091555381_091556736_091558097_091559467_091560843_091562227_091563619_091565017_091566423_091567837_091569257_091570686_091572121_091573564_091575014_091576471_091577936_091579408_091580887_091582373_091583867_091585368_091586876_091588392_091589914_091591444_091592981_091594526_091596077_091597636_091599202_091600775_091602355_091603942_091605537_091607138_091608747_091610363_091611986_091613616_091615253_091616898_091618549_091620207_091621873_091623545_091625225_091626912_091628605_091630306_091632014_091633728_091635450_091637179_091638914_091640657_091642406_091644163_091645926_091647697_091649474_091651258_091653049_091654847_091656652_091658464_091660283_091662108_091663941_091665780_091667626_091669479_091671339_091673206_091675079_091676959_091678846_091680740_091682641_091684548_091686462_091688383_091690311_091692245_091694186_091696134_091698088_091700050_091702018_091703992_091705973_091707961_091709956_091711957_091713965_091715980_091718001_091720029_091722063_091724104_091726152_091728206_091730267_091732334_091734408_091736488_091738575_091740669_091742769_091744875_091746988_091749108_091751234_091753367_091755506_091757651_091759803_091761962_091764126_091766298_091768475_091770660_091772850_091775047_091777251_091779460_091781676_091783899_091786128_091788363_091790605_091792852_091795107_091797367_091799634_091801907_091804187_091806472_091808765_091811063_091813367_091815678_091817995_091820319_091822648_091824984_091827326_091829674_091832028_091834389_091836755_091839128_091841507_091843893,
  91846284_091848681_091851085_091853495_091855911_091858333_091860761_091863195_091865635_091868081_091870534_091872992_091875456_091877927_091880403_091882886_091885374_091887869_091890369_091892876_091895388_091897907_091900431_091902962_091905498_091908040_091910589_091913143_091915703_091918269_091920840_091923418_091926002_091928591_091931187_091933788_091936395_091939008_091941626_091944251_091946881_091949517_091952159_091954807_091957461_091960120_091962785_091965456_091968132_091970814_091973502_091976196_091978896_091981601_091984312_091987028_091989750_091992478_091995212_091997951_092000696_092003446_092006202_092008964_092011731_092014504_092017283_092020067_092022857_092025652_092028453_092031259_092034071_092036889_092039712_092042540_092045375_092048214_092051059_092053910_092056766_092059627_092062494_092065367_092068245_092071128_092074017_092076911_092079810_092082715_092085626_092088542_092091463_092094389_092097321_092100259_092103201_092106149_092109102_092112061_092115025_092117994_092120969_092123949_092126934_092129924_092132920_092135921_092138927_092141938_092144955_092147977_092151004_092154036_092157074_092160116_092163164_092166217_092169275_092172339_092175407_092178481_092181560_092184644_092187733_092190827_092193926_092197030_092200140_092203254_092206374_092209499_092212628_092215763_092218903_092222048_092225197_092228352_092231512_092234677_092237847_092241021_092244201_092247386_092250576_092253770_092256970_092260174_092263384_092266598_092269817_092273041_092276270_092279504_092282743_092285987_092289235_092292488_092295747_092299010_092302277_092305550_092308828_092312110_092315397_092318689_092321985_092325287_092328593_092331903_092335219_092338539_092341864_092345194_092348529_092351868_092355212_092358560_092361914_092365271_092368634_092372001_092375373_092378750_092382131_092385516_092388907_092392302_092395701_092399105_092402514_092405927_092409345_092412767_092416194_092419626_092423062_092426502_092429947_092433397_092436851_092440309_092443772_092447240_092450712_092454188_092457669_092461154_092464644_092468138_092471637_092475140_092478647_092482159_092485675_092489195_092492720_092496249_092499783_092503321_092506863_092510410_092513961_092517516_092521075_092524639_092528207_092531780_092535356_092538937_092542522_092546112_092549705_092553303_092556905_092560512_092564122_092567737_092571356_092574979_092578606_092582237_092585873_092589513_092593156_092596804_092600456_092604113_092607773_092611437_092615106_092618779_092622455_092626136_092629821_092633510,
  92637203_092640899_092644600_092648305_092652014_092655727_092659444_092663165_092666890_092670619_092674352_092678089_092681830_092685575_092689323_092693076_092696832_092700593_092704357_092708125_092711897_092715673_092719453_092723237_092727024_092730816_092734611_092738410_092742213_092746020_092749830_092753645_092757463_092761284_092765110_092768939_092772773_092776610_092780450_092784295_092788143_092791994_092795850_092799709_092803572_092807439_092811309_092815183_092819061_092822942_092826827_092830715_092834607_092838503_092842403_092846306_092850212_092854122_092858036_092861954_092865874_092869799_092873727_092877659_092881594_092885532_092889474_092893420_092897369_092901322_092905278_092909238_092913201_092917167_092921137_092925111_092929088_092933068_092937052_092941039_092945029_092949023_092953021_092957022_092961026_092965033_092969044_092973058_092977076_092981097_092985121_092989149_092993179_092997214_093001251_093005292_093009336_093013383_093017434_093021488_093025545_093029605_093033669_093037735_093041805_093045879_093049955_093054035_093058118_093062204_093066293_093070385_093074481_093078579_093082681_093086786_093090894_093095005_093099120_093103237_093107358_093111481_093115608_093119738_093123870_093128006_093132145_093136287_093140432_093144580_093148731_093152885_093157042_093161202_093165365_093169531_093173700_093177872_093182047_093186225_093190406_093194590_093198776_093202966_093207158_093211354_093215552_093219753_093223957_093228164_093232374_093236587_093240802_093245020_093249242_093253466_093257692_093261922_093266154_093270390_093274628_093278868_093283112_093287358_093291607_093295859_093300114_093304371_093308631_093312894_093317159_093321428_093325699_093329972_093334248_093338527_093342809_093347093_093351380_093355670_093359962_093364256_093368554_093372854_093377157_093381462_093385770_093390080_093394393_093398709_093403027_093407347_093411671_093415996_093420325_093424655_093428989_093433325_093437663_093442004_093446347_093450693_093455041_093459392_093463745_093468101_093472459_093476819_093481182_093485547_093489915_093494285_093498658_093503033_093507410_093511790_093516172_093520556_093524943_093529332_093533723_093538117_093542513_093546911_093551312_093555715_093560120_093564528_093568938_093573350_093577764_093582181_093586600_093591021_093595444_093599870_093604297_093608727_093613159_093617594_093622030_093626469_093630910_093635353_093639798_093644246_093648695_093653147_093657601_093662056_093666514_093670974_093675437_093679901_093684367_093688836,
  93693306_093697779_093702254_093706730_093711209_093715690_093720172_093724657_093729144_093733633_093738124_093742616_093747111_093751608_093756107_093760607_093765110_093769614_093774121_093778629_093783140_093787652_093792166_093796682_093801200_093805720_093810242_093814765_093819291_093823818_093828347_093832878_093837411_093841946_093846482_093851020_093855560_093860102_093864646_093869191_093873739_093878288_093882838_093887391_093891945_093896501_093901059_093905618_093910180_093914743_093919307_093923873_093928441_093933011_093937583_093942156_093946730_093951307_093955885_093960464_093965045_093969628_093974213_093978799_093983387_093987976_093992567_093997159_094001754_094006349_094010946_094015545_094020145_094024747_094029351_094033956_094038562_094043170_094047779_094052390_094057003_094061617_094066232_094070849_094075467_094080087_094084708_094089331_094093955_094098580_094103207_094107836_094112466_094117097_094121729_094126363_094130999_094135635_094140273_094144913_094149554_094154196_094158839_094163484_094168130_094172777_094177426_094182076_094186727_094191380_094196034_094200689_094205346_094210003_094214662_094219322_094223984_094228646_094233310_094237975_094242642_094247309_094251978_094256648_094261319_094265991_094270665_094275339_094280015_094284692_094289370_094294049_094298729_094303411_094308093_094312777_094317462_094322148_094326834_094331522_094336212_094340902_094345593_094350285_094354978_094359673_094364368_094369065_094373762_094378460_094383160_094387860_094392562_094397264_094401968_094406672_094411377_094416084_094420791_094425499_094430208_094434918_094439629_094444341_094449054_094453768_094458482_094463198_094467914_094472631_094477349_094482068_094486788_094491509_094496230_094500953_094505676_094510400_094515125_094519851_094524577_094529304_094534032_094538761_094543491_094548221_094552952_094557684_094562417_094567150_094571884_094576619_094581355_094586091_094590828_094595566_094600304_094605043_094609783_094614523_094619264_094624006_094628749_094633492_094638236_094642980_094647725_094652471_094657217_094661964_094666711_094671459_094676208_094680957_094685707_094690457_094695208_094699960_094704712_094709464_094714217_094718971_094723725_094728480_094733235_094737991_094742747_094747504_094752261_094757019_094761777_094766536_094771295_094776054_094780814_094785575_094790336_094795097_094799859_094804621_094809384_094814146_094818910_094823674_094828438_094833202_094837967_094842732_094847498_094852264_094857030_094861797_094866564_094871331_094876099_094880867,
  94885635_094890404_094895172_094899942_094904711_094909481_094914251_094919021_094923791_094928562_094933333_094938104_094942876_094947647_094952419_094957191_094961964_094966736_094971509_094976282_094981055_094985828_094990601_094995375_095000149_095004923_095009697_095014471_095019245_095024020_095028794_095033569_095038343_095043118_095047893_095052668_095057443_095062219_095066994_095071769_095076545_095081320_095086095_095090871_095095647_095100422_095105198_095109973_095114749_095119525_095124300_095129076_095133851_095138627_095143402_095148178_095152953_095157729_095162504_095167279_095172055_095176830_095181605_095186380_095191155_095195929_095200704_095205479_095210253_095215028_095219802_095224576_095229350_095234124_095238897_095243671_095248444_095253217_095257990_095262763_095267536_095272308_095277080_095281853_095286624_095291396_095296167_095300938_095305709_095310480_095315251_095320021_095324791_095329560_095334330_095339099_095343868_095348636_095353404_095358172_095362940_095367707_095372474_095377241_095382007_095386773_095391539_095396304_095401069_095405834_095410598_095415362_095420126_095424889_095429652_095434414_095439176_095443937_095448699_095453459_095458220_095462979_095467739_095472498_095477256_095482014_095486772_095491529_095496286_095501042_095505798_095510553_095515308_095520062_095524816_095529569_095534322_095539074_095543826_095548577_095553328_095558078_095562827_095567576_095572325_095577072_095581820_095586566_095591313_095596058_095600803_095605547_095610291_095615034_095619777_095624518_095629260_095634000_095638740_095643480_095648218_095652956_095657694_095662430_095667166_095671902_095676636_095681370_095686103_095690836_095695568_095700299_095705029_095709759_095714488_095719216_095723944_095728670_095733396_095738122_095742846_095747570_095752293_095757015_095761736_095766457_095771177_095775896_095780614_095785331_095790048_095794763_095799478_095804192_095808905_095813618_095818329_095823040_095827750_095832459_095837167_095841874_095846580_095851286_095855990_095860694_095865397_095870098_095874799_095879499_095884198_095888896_095893594_095898290_095902985_095907679_095912373_095917065_095921757_095926447_095931137_095935825_095940513_095945199_095949885_095954569_095959253_095963935_095968617_095973297_095977976_095982655_095987332_095992008_095996684_096001358_096006031_096010703_096015374_096020044_096024713_096029380_096034047_096038712_096043377_096048040_096052702_096057363_096062023_096066682_096071340_096075996_096080652_096085306_096089959_096094611,
  96099261_096103911_096108559_096113207_096117853_096122497_096127141_096131784_096136425_096141065_096145703_096150341_096154977_096159612_096164246_096168879_096173510_096178140_096182769_096187397_096192023_096196648_096201272_096205894_096210516_096215135_096219754_096224371_096228987_096233602_096238215_096242827_096247438_096252047_096256655_096261262_096265867_096270471_096275074_096279675_096284275_096288874_096293471_096298067_096302661_096307254_096311845_096316436_096321024_096325612_096330198_096334782_096339365_096343947_096348527_096353106_096357683_096362259_096366833_096371406_096375978_096380548_096385116_096389683_096394249_096398813_096403376_096407937_096412496_096417054_096421611_096426166_096430719_096435271_096439822_096444371_096448918_096453464_096458008_096462551_096467092_096471632_096476170_096480706_096485241_096489774_096494306_096498836_096503364_096507891_096512417_096516940_096521462_096525983_096530502_096535019_096539534_096544048_096548560_096553071_096557580_096562087_096566593_096571097_096575599_096580100_096584598_096589096_096593591_096598085_096602577_096607068_096611556_096616043_096620529_096625012_096629494_096633974_096638452_096642929_096647404_096651877_096656348_096660818_096665286_096669752_096674216_096678679_096683139_096687598_096692056_096696511_096700965_096705416_096709866_096714314_096718761_096723205_096727648_096732089_096736528_096740965_096745400_096749834_096754265_096758695_096763123_096767549_096771973_096776396_096780816_096785234_096789651_096794066_096798479_096802890_096807299_096811706_096816111_096820514_096824916_096829315_096833713_096838108_096842502_096846894_096851284_096855671_096860057_096864441_096868823_096873203_096877581_096881957_096886331_096890703_096895073_096899441_096903807_096908171_096912533_096916893_096921251_096925607_096929961_096934313_096938663_096943011_096947357_096951701_096956043_096960382_096964720_096969056_096973389_096977720_096982050_096986377_096990702_096995026_096999347_097003666_097007982_097012297_097016610_097020920_097025229_097029535_097033839_097038141_097042441_097046739_097051035_097055328_097059619_097063909_097068196_097072481_097076763_097081044_097085322_097089599_097093873_097098145_097102414_097106682_097110947_097115210_097119471_097123730_097127986_097132240_097136493_097140742_097144990_097149235_097153478_097157719_097161958_097166194_097170429_097174661_097178890_097183118_097187343_097191566_097195786_097200005_097204221_097208434_097212646_097216855_097221062_097225267_097229469_097233669,
  97237867_097242062_097246255_097250446_097254634_097258820_097263004_097267185_097271365_097275541_097279716_097283888_097288057_097292225_097296390_097300552_097304712_097308870_097313026_097317179_097321330_097325478_097329624_097333767_097337909_097342047_097346184_097350318_097354449_097358578_097362705_097366829_097370951_097375070_097379187_097383302_097387414_097391524_097395631_097399736_097403838_097407938_097412035_097416130_097420222_097424312_097428400_097432485_097436567_097440647_097444725_097448800_097452872_097456942_097461010_097465075_097469138_097473198_097477255_097481310_097485362_097489412_097493460_097497504_097501547_097505587_097509624_097513658_097517690_097521720_097525747_097529771_097533793_097537813_097541829_097545843_097549855_097553864_097557870_097561874_097565875_097569874_097573870_097577863_097581854_097585842_097589828_097593811_097597791_097601769_097605744_097609716_097613686_097617654_097621618_097625580_097629539_097633496_097637450_097641401_097645350_097649296_097653239_097657180_097661118_097665053_097668986_097672916_097676843_097680767_097684689_097688608_097692525_097696439_097700350_097704258_097708164_097712067_097715967_097719865_097723759_097727651_097731541_097735427_097739311_097743192_097747071_097750946_097754819_097758690_097762557_097766422_097770284_097774143_097777999_097781853_097785703_097789551_097793397_097797239_097801079_097804916_097808750_097812581_097816410_097820236_097824059_097827879_097831696_097835511_097839322_097843131_097846937_097850741_097854541_097858339_097862133_097865925_097869714_097873501_097877284_097881065_097884842_097888617_097892389_097896158_097899925_097903688_097907449_097911207_097914961_097918713_097922462_097926209_097929952_097933692_097937430_097941165_097944896_097948625_097952351_097956074_097959795_097963512_097967226_097970938_097974646_097978352_097982054_097985754_097989451_097993145_097996836_098000524_098004209_098007891_098011570_098015247_098018920_098022590_098026258_098029922_098033584_098037242_098040898_098044551_098048200_098051847_098055491_098059131_098062769_098066404_098070036_098073665_098077290_098080913_098084533_098088150_098091764_098095374_098098982_098102587_098106189_098109788_098113383_098116976_098120566_098124152_098127736_098131317_098134894_098138469_098142041_098145609_098149175_098152737_098156296_098159853_098163406_098166956_098170503_098174047_098177588_098181126_098184661_098188193_098191722_098195248_098198770_098202290_098205806_098209320_098212830_098216337_098219841_098223342,
  98226840_098230335_098233827_098237316_098240801_098244284_098247763_098251239_098254712_098258182_098261649_098265113_098268574_098272031_098275486_098278937_098282385_098285830_098289272_098292710_098296146_098299578_098303008_098306434_098309857_098313277_098316693_098320107_098323517_098326925_098330329_098333730_098337127_098340522_098343913_098347301_098350686_098354068_098357447_098360822_098364195_098367564_098370930_098374293_098377652_098381008_098384362_098387712_098391058_098394402_098397742_098401079_098404413_098407744_098411072_098414396_098417717_098421035_098424349_098427661_098430969_098434274_098437576_098440874_098444169_098447461_098450750_098454036_098457318_098460597_098463873_098467145_098470415_098473681_098476944_098480203_098483459_098486713_098489962_098493209_098496452_098499692_098502929_098506162_098509392_098512619_098515843_098519063_098522280_098525494_098528704_098531912_098535116_098538316_098541514_098544708_098547898_098551086_098554270_098557451_098560628_098563803_098566973_098570141_098573305_098576466_098579624_098582778_098585929_098589077_098592222_098595363_098598500_098601635_098604766_098607894_098611018_098614139_098617257_098620372_098623483_098626590_098629695_098632796_098635894_098638988_098642079_098645167_098648251_098651332_098654410_098657484_098660555_098663623_098666687_098669748_098672805_098675859_098678910_098681957_098685001_098688042_098691079_098694113_098697143_098700171_098703194_098706215_098709232_098712245_098715255_098718262_098721266_098724266_098727262_098730255_098733245_098736232_098739215_098742194_098745171_098748144_098751113_098754079_098757042_098760001_098762957_098765909_098768858_098771803_098774746_098777684_098780620_098783552_098786480_098789405_098792327_098795245_098798160_098801071_098803979_098806883_098809784_098812682_098815576_098818467_098821354_098824238_098827118_098829995_098832869_098835739_098838605_098841468_098844328_098847184_098850037_098852887_098855732_098858575_098861414_098864249_098867081_098869910_098872735_098875557_098878375_098881190_098884001_098886809_098889613_098892414_098895212_098898005_098900796_098903583_098906366_098909146_098911923_098914696_098917465_098920232_098922994_098925753_098928509_098931261_098934010_098936755_098939497_098942235_098944969_098947701_098950428_098953152_098955873_098958590_098961304_098964014_098966721_098969424_098972124_098974820_098977513_098980202_098982887_098985570_098988248_098990923_098993595_098996263_098998928_099001589_099004246_099006900_099009551_099012198,
  99014841_099017481_099020117_099022750_099025380_099028005_099030628_099033247_099035862_099038474_099041082_099043686_099046288_099048885_099051479_099054070_099056657_099059240_099061820_099064396_099066969_099069539_099072104_099074666_099077225_099079780_099082332_099084880_099087424_099089965_099092503_099095036_099097567_099100093_099102617_099105136_099107652_099110165_099112674_099115179_099117681_099120179_099122674_099125165_099127653_099130137_099132617_099135094_099137568_099140037_099142504_099144966_099147425_099149881_099152333_099154781_099157226_099159667_099162105_099164539_099166970_099169397_099171820_099174240_099176656_099179069_099181478_099183884_099186286_099188684_099191079_099193470_099195858_099198242_099200622_099202999_099205372_099207742_099210108_099212471_099214830_099217185_099219537_099221885_099224230_099226571_099228908_099231242_099233572_099235899_099238222_099240542_099242858_099245170_099247479_099249784_099252085_099254383_099256678_099258968_099261256_099263539_099265819_099268096_099270368_099272638_099274903_099277165_099279424_099281678_099283930_099286177_099288421_099290662_099292898_099295132_099297361_099299587_099301810_099304028_099306243_099308455_099310663_099312867_099315068_099317265_099319459_099321649_099323835_099326018_099328197_099330372_099332544_099334713_099336877_099339038_099341196_099343350_099345500_099347647_099349790_099351929_099354065_099356197_099358326_099360451_099362572_099364690_099366804_099368914_099371021_099373125_099375224_099377320_099379413_099381502_099383587_099385669_099387747_099389821_099391892_099393959_099396022_099398082_099400139_099402191_099404240_099406286_099408328_099410366_099412400_099414431_099416459_099418483_099420503_099422519_099424532_099426541_099428547_099430549_099432547_099434542_099436533_099438521_099440505_099442485_099444462_099446435_099448405_099450370_099452333_099454291_099456246_099458198_099460145_099462090_099464030_099465967_099467900_099469830_099471756_099473678_099475597_099477512_099479424_099481332_099483236_099485137_099487034_099488928_099490817_099492704_099494586_099496465_099498341_099500212_099502081_099503945_099505806_099507663_099509517_099511367_099513214_099515056_099516896_099518731_099520563_099522391_099524216_099526037_099527855_099529669_099531479_099533286_099535089_099536888_099538684_099540476_099542265_099544049_099545831_099547609_099549383_099551153_099552920_099554683_099556443_099558199_099559951_099561700_099563445_099565187_099566925_099568659_099570390_099572117,
  99573841_099575560_099577277_099578989_099580699_099582404_099584106_099585804_099587499_099589190_099590877_099592561_099594241_099595918_099597591_099599260_099600926_099602588_099604247_099605901_099607553_099609201_099610845_099612485_099614122_099615755_099617385_099619011_099620634_099622253_099623868_099625480_099627088_099628692_099630293_099631890_099633484_099635074_099636661_099638244_099639823_099641399_099642971_099644539_099646104_099647665_099649223_099650777_099652328_099653875_099655418_099656958_099658494_099660027_099661556_099663081_099664603_099666121_099667636_099669147_099670654_099672158_099673658_099675155_099676648_099678137_099679623_099681106_099682584_099684060_099685531_099686999_099688464_099689924_099691382_099692835_099694285_099695732_099697175_099698614_099700050_099701482_099702911_099704336_099705758_099707175_099708590_099710001_099711408_099712811_099714211_099715608_099717001_099718390_099719776_099721158_099722537_099723912_099725283_099726651_099728016_099729377_099730734_099732088_099733438_099734784_099736127_099737467_099738803_099740135_099741464_099742789_099744111_099745429_099746743_099748054_099749362_099750666_099751966_099753263_099754556_099755846_099757132_099758415_099759694_099760969_099762241_099763510_099764775_099766036_099767294_099768548_099769799_099771046_099772290_099773530_099774767_099776000_099777229_099778455_099779678_099780897_099782112_099783324_099784532_099785737_099786938_099788136_099789330_099790521_099791708_099792892_099794072_099795249_099796422_099797591_099798757_099799920_099801079_099802234_099803386_099804535_099805680_099806821_099807959_099809094_099810225_099811352_099812476_099813596_099814713_099815827_099816937_099818043_099819146_099820245_099821341_099822434_099823523_099824608_099825690_099826768_099827843_099828915_099829983_099831047_099832108_099833166_099834220_099835270_099836317_099837361_099838401_099839437_099840471_099841500_099842526_099843549_099844568_099845584_099846596_099847605_099848610_099849612_099850611_099851605_099852597_099853585_099854569_099855550_099856528_099857502_099858473_099859440_099860404_099861364_099862321_099863274_099864224_099865171_099866114_099867053_099867990_099868922_099869851_099870777_099871700_099872619_099873534_099874446_099875355_099876260_099877162_099878060_099878955_099879846_099880734_099881619_099882500_099883378_099884252_099885123_099885990_099886854_099887715_099888572_099889426_099890276_099891123_099891967_099892807_099893643_099894477_099895307_099896133_099896956,
  99897776_099898592_099899405_099900214_099901020_099901823_099902622_099903418_099904211_099905000_099905785_099906568_099907347_099908122_099908894_099909663_099910428_099911190_099911949_099912704_099913456_099914205_099914950_099915691_099916430_099917165_099917896_099918625_099919350_099920071_099920789_099921504_099922215_099922923_099923628_099924330_099925028_099925722_099926414_099927101_099927786_099928467_099929145_099929820_099930491_099931159_099931823_099932485_099933142_099933797_099934448_099935096_099935741_099936382_099937020_099937654_099938285_099938913_099939538_099940159_099940777_099941392_099942003_099942611_099943216_099943817_099944415_099945010_099945601_099946189_099946774_099947356_099947934_099948509_099949081_099949649_099950214_099950776_099951334_099951889_099952441_099952990_099953535_099954077_099954616_099955152_099955684_099956213_099956738_099957261_099957780_099958296_099958808_099959318_099959824_099960326_099960826_099961322_099961815_099962305_099962791_099963275_099963755_099964231_099964705_099965175_099965642_099966106_099966566_099967024_099967478_099967929_099968376_099968821_099969262_099969700_099970134_099970566_099970994_099971419_099971841_099972259_099972675_099973087_099973496_099973901_099974304_099974703_099975099_099975492_099975882_099976268_099976651_099977031_099977408_099977782_099978152_099978520_099978884_099979245_099979603_099979957_099980308_099980657_099981002_099981344_099981682_099982018_099982350_099982679_099983005_099983328_099983648_099983964_099984278_099984588_099984895_099985199_099985499_099985797_099986092_099986383_099986671_099986956_099987238_099987517_099987792_099988065_099988334_099988600_099988863_099989123_099989380_099989634_099989884_099990132_099990376_099990617_099990855_099991090_099991322_099991551_099991777_099991999_099992219_099992435_099992648_099992859_099993066_099993270_099993471_099993668_099993863_099994055_099994243_099994429_099994611_099994791_099994967_099995140_099995310_099995477_099995641_099995802_099995960_099996115_099996267_099996415_099996561_099996703_099996843_099996979_099997113_099997243_099997371_099997495_099997616_099997734_099997850_099997962_099998071_099998177_099998280_099998380_099998477_099998571_099998662_099998750_099998835_099998917_099998996_099999072_099999145_099999215_099999282_099999346_099999407_099999465_099999520_099999572_099999621_099999667_099999710_099999750_099999787_099999821_099999852_099999880_099999905_099999928_099999947_099999963_099999976_099999987_099999994_099999999]

/-- `_lanczos3_vtable`, pmesh/_window_lanczos.h:2086-4134: 8192 entries. -/
def lanczos3Rows : List ℕ := [
  200295335_200295310_200295237_200295114_200294942_200294720_200294450_200294130_200293762_200293344_200292877_200292360_200291795_200291180_200290517_200289804_200289042_200288231_200287370_200286461_200285502_200284494_200283437_200282331_200281175_200279971_200278717_200277415_200276063_200274662_200273211_200271712_200270163_200268566_200266919_200265223_200263478_200261684_200259840_200257948_200256006_200254015_200251976_200249887_200247748_200245561_200243325_200241039_200238705_200236321_200233888_200231406_200228875_200226295_200223666_200220988_200218260_200215484_200212658_200209783_200206860_200203887_200200865_200197794_200194674_200191505_200188286_200185019_200181703_200178337_200174923_200171459_200167947_200164385_200160775_200157115_200153406_200149649_200145842_200141986_200138082_200134128_200130125_200126073_200121972_200117823_200113624_200109376_200105079_200100734_200096339_200091895_200087403_200082861_200078270_200073631_200068942_200064205_200059419_200054583_200049699_200044766_200039784_200034753_200029673_200024544_200019367_200014140_200008865_200003540_199998167_199992745_199987274_199981754_199976186_199970568_199964902_199959186_199953422_199947609_199941748_199935837_199929878_199923870_199917813_199911707_199905552_199899349_199893097_199886796_199880446_199874048_199867601_199861105_199854560_199847967_199841325_199834634_199827895_199821106_199814269_199807384_199800449_199793466_199786435_199779354_199772226_199765048_199757822_199750547_199743223_199735851_199728430_199720961_199713443_199705876_199698261_199690597_199682885_199675124_199667315_199659457_199651550_199643595_199635592_199627540_199619439_199611290_199603092_199594846_199586552_199578209_199569817_199561377_199552889_199544352_199535767_199527133_199518451_199509721_199500942_199492115_199483239_199474315_199465343_199456322_199447253_199438136_199428970_199419756_199410494_199401183_199391824_199382417_199372962_199363458_199353906_199344306_199334658_199324961_199315216_199305423_199295582_199285693_199275755_199265770_199255736_199245654_199235524_199225345_199215119_199204844_199194522_199184151_199173733_199163266_199152751_199142188_199131577_199120918_199110211_199099457_199088654_199077803_199066904_199055957_199044962_199033920_199022829_199011691_199000504_198989270_198977988_198966658_198955280_198943854_198932381_198920859_198909290_198897673_198886008_198874296_198862535_198850727_198838871_198826968_198815016_198803017_198790971_198778876_198766734_198754545_198742307_198730022_198717690_198705310,
  198692882_198680406_198667883_198655313_198642695_198630029_198617316_198604555_198591747_198578891_198565988_198553038_198540040_198526994_198513901_198500761_198487573_198474338_198461056_198447726_198434349_198420924_198407453_198393934_198380367_198366753_198353093_198339384_198325629_198311826_198297976_198284079_198270135_198256144_198242105_198228019_198213886_198199707_198185479_198171205_198156884_198142516_198128100_198113638_198099129_198084572_198069969_198055319_198040621_198025877_198011086_197996248_197981363_197966431_197951452_197936427_197921354_197906235_197891069_197875856_197860596_197845290_197829937_197814537_197799090_197783597_197768057_197752470_197736837_197721157_197705430_197689657_197673837_197657971_197642058_197626098_197610092_197594039_197577940_197561794_197545602_197529364_197513079_197496747_197480370_197463945_197447475_197430958_197414395_197397785_197381129_197364427_197347678_197330883_197314042_197297155_197280222_197263242_197246216_197229144_197212026_197194862_197177651_197160395_197143092_197125744_197108349_197090908_197073422_197055889_197038310_197020686_197003015_196985298_196967536_196949728_196931874_196913974_196896028_196878036_196859998_196841915_196823786_196805611_196787391_196769125_196750813_196732455_196714052_196695603_196677108_196658568_196639983_196621351_196602674_196583952_196565184_196546371_196527512_196508608_196489658_196470663_196451622_196432536_196413405_196394228_196375006_196355739_196336426_196317068_196297665_196278217_196258723_196239185_196219601_196199972_196180297_196160578_196140814_196121004_196101150_196081250_196061305_196041316_196021281_196001202_195981077_195960908_195940693_195920434_195900130_195879781_195859387_195838949_195818465_195797937_195777364_195756747_195736085_195715378_195694626_195673830_195652989_195632103_195611173_195590199_195569180_195548116_195527008_195505855_195484658_195463416_195442130_195420800_195399425_195378006_195356543_195335035_195313483_195291887_195270246_195248562_195226833_195205060_195183242_195161381_195139475_195117526_195095532_195073494_195051412_195029286_195007117_194984903_194962645_194940343_194917998_194895608_194873175_194850698_194828177_194805612_194783004_194760351_194737655_194714916_194692132_194669305_194646434_194623520_194600562_194577561_194554516_194531427_194508295_194485120_194461901_194438638_194415332_194391983_194368590_194345155_194321675_194298153_194274587_194250978_194227325_194203630_194179891_194156109_194132284_194108416_194084505_194060551_194036553_194012513,
  193988430_193964303_193940134_193915922_193891667_193867369_193843028_193818644_193794218_193769748_193745236_193720682_193696084_193671444_193646761_193622036_193597268_193572457_193547604_193522708_193497770_193472789_193447765_193422700_193397592_193372441_193347248_193322013_193296735_193271415_193246053_193220649_193195202_193169713_193144182_193118609_193092994_193067336_193041637_193015895_192990112_192964286_192938419_192912509_192886558_192860565_192834530_192808453_192782334_192756173_192729971_192703726_192677441_192651113_192624744_192598333_192571880_192545386_192518851_192492273_192465655_192438994_192412293_192385550_192358765_192331939_192305072_192278163_192251213_192224222_192197190_192170116_192143001_192115845_192088648_192061409_192034130_192006809_191979448_191952045_191924602_191897117_191869592_191842025_191814418_191786770_191759081_191731351_191703581_191675769_191647917_191620025_191592091_191564117_191536102_191508047_191479951_191451815_191423638_191395421_191367163_191338865_191310527_191282148_191253728_191225269_191196769_191168229_191139648_191111028_191082367_191053666_191024925_190996144_190967323_190938462_190909561_190880619_190851638_190822617_190793556_190764455_190735315_190706134_190676914_190647654_190618354_190589015_190559636_190530217_190500759_190471261_190441723_190412146_190382530_190352874_190323178_190293443_190263669_190233856_190204003_190174110_190144179_190114208_190084198_190054149_190024061_189993934_189963767_189933562_189903317_189873034_189842711_189812349_189781949_189751510_189721032_189690515_189659959_189629364_189598731_189568059_189537348_189506599_189475811_189444984_189414119_189383216_189352274_189321293_189290274_189259216_189228121_189196986_189165814_189134603_189103354_189072067_189040741_189009377_188977975_188946536_188915058_188883541_188851987_188820395_188788765_188757097_188725391_188693648_188661866_188630047_188598189_188566294_188534362_188502392_188470384_188438338_188406255_188374134_188341976_188309780_188277547_188245276_188212968_188180623_188148240_188115820_188083362_188050868_188018336_187985767_187953161_187920517_187887837_187855119_187822365_187789573_187756745_187723879_187690977_187658038_187625062_187592049_187559000_187525913_187492790_187459630_187426434_187393201_187359931_187326625_187293283_187259903_187226488_187193036_187159547_187126023_187092462_187058864_187025230_186991561_186957854_186924112_186890334_186856519_186822669_186788782_186754859_186720901_186686906_186652876_186618810_186584707_186550569_186516396,
  186482186_186447941_186413660_186379344_186344992_186310604_186276181_186241722_186207228_186172698_186138133_186103532_186068896_186034225_185999519_185964777_185930000_185895188_185860341_185825459_185790541_185755589_185720601_185685579_185650522_185615429_185580302_185545140_185509943_185474712_185439445_185404144_185368808_185333438_185298033_185262593_185227119_185191611_185156068_185120490_185084878_185049232_185013551_184977836_184942087_184906303_184870486_184834634_184798748_184762828_184726874_184690886_184654863_184618807_184582717_184546593_184510436_184474244_184438018_184401759_184365466_184329140_184292780_184256386_184219958_184183497_184147003_184110475_184073914_184037319_184000691_183964029_183927334_183890606_183853845_183817051_183780223_183743362_183706468_183669541_183632581_183595588_183558563_183521504_183484412_183447288_183410130_183372940_183335717_183298462_183261174_183223853_183186499_183149113_183111695_183074244_183036760_182999244_182961696_182924115_182886503_182848857_182811180_182773470_182735728_182697954_182660148_182622310_182584440_182546538_182508604_182470638_182432640_182394610_182356549_182318456_182280331_182242174_182203985_182165765_182127514_182089231_182050916_182012570_181974192_181935783_181897343_181858871_181820368_181781834_181743268_181704672_181666044_181627385_181588695_181549974_181511221_181472438_181433624_181394779_181355904_181316997_181278060_181239092_181200093_181161063_181122003_181082912_181043791_181004639_180965457_180926244_180887001_180847727_180808424_180769089_180729725_180690330_180650905_180611450_180571965_180532450_180492904_180453329_180413724_180374089_180334423_180294728_180255004_180215249_180175465_180135651_180095807_180055934_180016031_179976098_179936136_179896145_179856124_179816074_179775994_179735885_179695747_179655579_179615383_179575157_179534902_179494617_179454304_179413962_179373591_179333190_179292761_179252303_179211816_179171301_179130756_179090183_179049582_179008951_178968292_178927604_178886888_178846144_178805371_178764569_178723739_178682881_178641995_178601080_178560137_178519166_178478166_178437139_178396083_178355000_178313888_178272749_178231582_178190386_178149163_178107912_178066634_178025327_177983993_177942632_177901242_177859825_177818381_177776909_177735410_177693883_177652329_177610748_177569139_177527503_177485840_177444149_177402432_177360687_177318915_177277117_177235291_177193439_177151559_177109653_177067720_177025760_176983773_176941759_176899719_176857653_176815559_176773440_176731293_176689120,
  176646921_176604695_176562443_176520165_176477861_176435530_176393173_176350790_176308380_176265945_176223484_176180996_176138483_176095944_176053379_176010788_175968171_175925529_175882860_175840167_175797447_175754702_175711931_175669135_175626313_175583466_175540594_175497696_175454773_175411825_175368851_175325852_175282828_175239779_175196705_175153605_175110481_175067332_175024158_174980959_174937735_174894486_174851213_174807915_174764592_174721245_174677873_174634476_174591055_174547610_174504140_174460645_174417127_174373584_174330016_174286425_174242809_174199169_174155505_174111817_174068105_174024369_173980609_173936826_173893018_173849186_173805331_173761452_173717549_173673623_173629672_173585699_173541702_173497681_173453637_173409569_173365478_173321364_173277226_173233066_173188882_173144674_173100444_173056191_173011914_172967615_172923292_172878947_172834579_172790188_172745774_172701337_172656878_172612396_172567891_172523364_172478814_172434242_172389647_172345029_172300390_172255728_172211044_172166337_172121608_172076857_172032084_171987289_171942472_171897632_171852771_171807888_171762983_171718056_171673107_171628137_171583144_171538130_171493095_171448038_171402959_171357859_171312737_171267594_171222429_171177243_171132036_171086807_171041557_170996287_170950994_170905681_170860347_170814992_170769615_170724218_170678800_170633361_170587901_170542421_170496920_170451398_170405855_170360292_170314708_170269104_170223479_170177834_170132168_170086482_170040776_169995049_169949303_169903536_169857749_169811941_169766114_169720267_169674400_169628513_169582606_169536679_169490732_169444765_169398779_169352773_169306748_169260703_169214638_169168554_169122450_169076327_169030185_168984023_168937842_168891641_168845422_168799183_168752925_168706648_168660352_168614037_168567703_168521350_168474978_168428588_168382178_168335750_168289303_168242838_168196354_168149851_168103330_168056790_168010232_167963655_167917060_167870447_167823815_167777165_167730497_167683811_167637106_167590384_167543643_167496885_167450109_167403314_167356502_167309672_167262825_167215959_167169076_167122175_167075257_167028321_166981367_166934396_166887408_166840402_166793379_166746339_166699281_166652206_166605114_166558005_166510878_166463735_166416574_166369397_166322203_166274992_166227764_166180519_166133257_166085979_166038684_165991373_165944045_165896700_165849339_165801961_165754567_165707157_165659730_165612288_165564828_165517353_165469861_165422354_165374830_165327290_165279735_165232163_165184576_165136972,
  165089353_165041718_164994068_164946401_164898719_164851022_164803309_164755580_164707836_164660076_164612302_164564511_164516706_164468885_164421049_164373198_164325332_164277451_164229554_164181643_164133717_164085776_164037820_163989849_163941863_163893863_163845848_163797818_163749774_163701715_163653642_163605554_163557452_163509335_163461204_163413059_163364900_163316726_163268538_163220336_163172120_163123890_163075646_163027388_162979116_162930830_162882530_162834217_162785890_162737549_162689194_162640826_162592444_162544049_162495640_162447218_162398783_162350334_162301872_162253396_162204908_162156406_162107891_162059363_162010822_161962268_161913701_161865121_161816528_161767922_161719304_161670673_161622029_161573373_161524703_161476022_161427328_161378621_161329902_161281170_161232426_161183670_161134902_161086121_161037328_160988523_160939706_160890877_160842036_160793183_160744318_160695441_160646553_160597652_160548740_160499816_160450881_160401933_160352975_160304004_160255023_160206030_160157025_160108009_160058982_160009943_159960894_159911833_159862761_159813678_159764584_159715478_159666362_159617235_159568097_159518949_159469789_159420619_159371438_159322246_159273044_159223831_159174608_159125374_159076130_159026875_158977610_158928335_158879050_158829754_158780448_158731132_158681806_158632469_158583123_158533767_158484401_158435025_158385639_158336244_158286838_158237423_158187999_158138564_158089120_158039667_157990204_157940732_157891250_157841759_157792259_157742749_157693230_157643702_157594165_157544619_157495064_157445499_157395926_157346344_157296753_157247153_157197544_157147927_157098301_157048666_156999023_156949371_156899710_156850041_156800364_156750678_156700984_156651282_156601571_156551852_156502125_156452390_156402646_156352895_156303136_156253368_156203593_156153810_156104019_156054220_156004414_155954599_155904778_155854948_155805111_155755267_155705415_155655555_155605688_155555814_155505933_155456044_155406148_155356245_155306334_155256417_155206492_155156561_155106622_155056677_155006725_154956766_154906800_154856827_154806848_154756862_154706869_154656870_154606865_154556853_154506834_154456809_154406778_154356740_154306696_154256646_154206589_154156527_154106458_154056384_154006303_153956217_153906124_153856026_153805921_153755811_153705696_153655574_153605447_153555314_153505176_153455032_153404883_153354728_153304568_153254402_153204231_153154055_153103874_153053687_153003495_152953299_152903097_152852890_152802678_152752461_152702240_152652013_152601782_152551546,
  152501305_152451059_152400809_152350555_152300295_152250032_152199764_152149491_152099214_152048933_151998647_151948358_151898064_151847766_151797463_151747157_151696847_151646532_151596214_151545892_151495566_151445236_151394903_151344566_151294225_151243880_151193532_151143180_151092825_151042466_150992104_150941739_150891370_150840998_150790622_150740244_150689862_150639477_150589089_150538698_150488304_150437907_150387508_150337105_150286700_150236291_150185880_150135467_150085050_150034631_149984210_149933786_149883359_149832930_149782499_149732065_149681629_149631191_149580750_149530308_149479863_149429416_149378967_149328516_149278063_149227608_149177152_149126693_149076233_149025771_148975307_148924841_148874374_148823906_148773435_148722964_148672491_148622016_148571540_148521063_148470584_148420104_148369623_148319141_148268658_148218174_148167688_148117202_148066715_148016226_147965737_147915247_147864757_147814265_147763773_147713281_147662787_147612293_147561799_147511304_147460809_147410313_147359817_147309321_147258824_147208327_147157830_147107333_147056836_147006338_146955841_146905343_146854846_146804349_146753852_146703355_146652859_146602362_146551867_146501371_146450876_146400381_146349887_146299393_146248900_146198408_146147916_146097425_146046934_145996445_145945956_145895468_145844981_145794495_145744010_145693526_145643043_145592561_145542080_145491601_145441123_145390646_145340170_145289696_145239223_145188752_145138282_145087814_145037347_144986882_144936419_144885957_144835497_144785039_144734583_144684128_144633676_144583225_144532777_144482330_144431886_144381443_144331003_144280565_144230129_144179696_144129265_144078836_144028410_143977986_143927565_143877146_143826730_143776316_143725905_143675497_143625091_143574688_143524289_143473892_143423497_143373106_143322718_143272333_143221951_143171572_143121196_143070824_143020454_142970088_142919725_142869366_142819010_142768658_142718309_142667963_142617621_142567283_142516948_142466617_142416290_142365966_142315647_142265331_142215019_142164711_142114407_142064107_142013811_141963519_141913232_141862948_141812669_141762394_141712123_141661857_141611595_141561338_141511085_141460836_141410592_141360353_141310118_141259888_141209662_141159442_141109226_141059015_141008809_140958608_140908411_140858220_140808034_140757853_140707677_140657506_140607340_140557180_140507025_140456875_140406730_140356591_140306458_140256329_140206207_140156090_140105978_140055873_140005772_139955678_139905589_139855507_139805430_139755358_139705293_139655234,
  139605181_139555134_139505093_139455058_139405029_139355006_139304990_139254980_139204976_139154979_139104988_139055003_139005025_138955054_138905089_138855130_138805179_138755234_138705295_138655364_138605439_138555521_138505610_138455706_138405809_138355919_138306036_138256160_138206291_138156429_138106574_138056727_138006887_137957054_137907229_137857411_137807601_137757798_137708002_137658214_137608434_137558661_137508896_137459138_137409389_137359647_137309913_137260187_137210468_137160758_137111056_137061362_137011675_136961997_136912327_136862665_136813012_136763366_136713729_136664101_136614480_136564869_136515265_136465670_136416084_136366506_136316937_136267376_136217824_136168281_136118746_136069221_136019704_135970196_135920697_135871207_135821726_135772254_135722791_135673337_135623892_135574457_135525031_135475614_135426206_135376807_135327418_135278039_135228669_135179308_135129957_135080615_135031284_134981961_134932649_134883346_134834053_134784769_134735496_134686232_134636979_134587735_134538501_134489278_134440064_134390860_134341667_134292484_134243311_134194148_134144996_134095854_134046722_133997601_133948490_133899389_133850299_133801220_133752151_133703093_133654046_133605009_133555983_133506968_133457964_133408970_133359988_133311016_133262055_133213106_133164167_133115239_133066323_133017418_132968524_132919641_132870769_132821909_132773060_132724222_132675396_132626582_132577778_132528987_132480207_132431438_132382681_132333936_132285203_132236481_132187771_132139073_132090387_132041713_131993050_131944400_131895761_131847135_131798521_131749919_131701329_131652751_131604185_131555632_131507091_131458562_131410046_131361542_131313051_131264572_131216105_131167652_131119210_131070782_131022366_130973963_130925572_130877194_130828829_130780477_130732138_130683812_130635499_130587198_130538911_130490637_130442376_130394128_130345893_130297672_130249463_130201268_130153086_130104918_130056763_130008621_129960493_129912379_129864278_129816190_129768116_129720056_129672009_129623977_129575957_129527952_129479961_129431983_129384019_129336069_129288133_129240211_129192304_129144410_129096530_129048664_129000813_128952976_128905153_128857344_128809550_128761770_128714004_128666253_128618516_128570794_128523086_128475393_128427714_128380050_128332401_128284766_128237147_128189541_128141951_128094376_128046815_127999269_127951739_127904223_127856722_127809236_127761766_127714310_127666870_127619444_127572034_127524640_127477260_127429896_127382547_127335214_127287896_127240593_127193306_127146035,
  127098779_127051538_127004314_126957105_126909911_126862734_126815572_126768426_126721296_126674181_126627083_126580000_126532934_126485883_126438848_126391830_126344828_126297841_126250871_126203917_126156980_126110058_126063153_126016265_125969392_125922536_125875697_125828874_125782067_125735277_125688504_125641747_125595007_125548284_125501577_125454887_125408213_125361557_125314917_125268295_125221689_125175100_125128528_125081973_125035435_124988914_124942410_124895924_124849454_124803002_124756567_124710149_124663749_124617366_124571000_124524652_124478321_124432007_124385711_124339433_124293172_124246929_124200703_124154495_124108304_124062132_124015977_123969840_123923721_123877619_123831536_123785470_123739422_123693393_123647381_123601387_123555412_123509454_123463515_123417594_123371691_123325806_123279939_123234091_123188261_123142450_123096657_123050882_123005126_122959388_122913669_122867968_122822286_122776623_122730978_122685352_122639744_122594155_122548585_122503034_122457502_122411988_122366494_122321018_122275562_122230124_122184705_122139305_122093925_122048563_122003221_121957898_121912594_121867309_121822044_121776798_121731571_121686364_121641175_121596007_121550858_121505728_121460618_121415527_121370456_121325404_121280372_121235360_121190368_121145395_121100442_121055509_121010595_120965702_120920828_120875974_120831140_120786326_120741532_120696758_120652005_120607271_120562557_120517864_120473190_120428537_120383904_120339292_120294699_120250127_120205576_120161044_120116533_120072043_120027573_119983124_119938695_119894286_119849898_119805531_119761185_119716859_119672554_119628269_119584006_119539763_119495541_119451340_119407159_119363000_119318861_119274744_119230648_119186572_119142518_119098484_119054472_119010481_118966511_118922562_118878635_118834729_118790844_118746980_118703138_118659317_118615517_118571739_118527983_118484247_118440534_118396842_118353171_118309522_118265895_118222289_118178705_118135143_118091602_118048083_118004587_117961111_117917658_117874227_117830817_117787429_117744064_117700720_117657398_117614099_117570821_117527566_117484332_117441121_117397932_117354766_117311621_117268499_117225399_117182321_117139266_117096233_117053222_117010234_116967268_116924325_116881405_116838506_116795631_116752778_116709947_116667140_116624355_116581592_116538853_116496136_116453442_116410770_116368122_116325496_116282893_116240314_116197757_116155223_116112712_116070224_116027759_115985317_115942898_115900503_115858130_115815781_115773455_115731152_115688873_115646616,
  115604383_115562174_115519987_115477824_115435685_115393569_115351476_115309407_115267361_115225339_115183341_115141366_115099414_115057487_115015583_114973702_114931846_114890013_114848204_114806419_114764657_114722919_114681206_114639516_114597850_114556208_114514590_114472996_114431426_114389880_114348358_114306860_114265386_114223937_114182511_114141110_114099733_114058381_114017052_113975748_113934468_113893213_113851982_113810775_113769593_113728435_113687301_113646192_113605108_113564048_113523013_113482002_113441016_113400055_113359118_113318206_113277318_113236456_113195618_113154805_113114016_113073253_113032514_112991800_112951112_112910448_112869809_112829195_112788606_112748042_112707503_112666989_112626500_112586036_112545598_112505184_112464796_112424433_112384095_112343783_112303495_112263233_112222997_112182785_112142599_112102439_112062304_112022194_111982110_111942051_111902018_111862010_111822028_111782071_111742140_111702235_111662355_111622501_111582673_111542870_111503093_111463342_111423617_111383917_111344243_111304595_111264973_111225377_111185807_111146263_111106744_111067252_111027785_110988345_110948931_110909542_110870180_110830844_110791534_110752250_110712993_110673761_110634556_110595377_110556224_110517098_110477998_110438924_110399877_110360855_110321861_110282892_110243951_110205035_110166146_110127284_110088448_110049638_110010856_109972099_109933370_109894667_109855990_109817341_109778718_109740121_109701552_109663009_109624493_109586003_109547541_109509105_109470696_109432314_109393959_109355631_109317330_109279056_109240809_109202588_109164395_109126229_109088089_109049977_109011892_108973834_108935804_108897800_108859824_108821874_108783952_108746057_108708190_108670350_108632536_108594751_108556992_108519261_108481558_108443882_108406233_108368611_108331017_108293451_108255912_108218400_108180916_108143460_108106031_108068630_108031256_107993910_107956592_107919301_107882038_107844802_107807595_107770415_107733262_107696138_107659041_107621973_107584932_107547919_107510933_107473976_107437046_107400145_107363271_107326426_107289608_107252818_107216056_107179323_107142617_107105940_107069290_107032669_106996076_106959510_106922974_106886465_106849984_106813532_106777108_106740712_106704344_106668005_106631694_106595411_106559157_106522931_106486733_106450564_106414423_106378311_106342227_106306171_106270144_106234145_106198175_106162234_106126321_106090436_106054580_106018753_105982954_105947184_105911443_105875730_105840046_105804391_105768764_105733166_105697597_105662057,
  105626545_105591062_105555608_105520183_105484787_105449419_105414080_105378771_105343490_105308238_105273015_105237821_105202656_105167520_105132413_105097335_105062286_105027266_104992275_104957313_104922381_104887477_104852603_104817758_104782941_104748155_104713397_104678668_104643969_104609299_104574658_104540047_104505464_104470912_104436388_104401894_104367429_104332993_104298587_104264210_104229863_104195545_104161256_104126997_104092768_104058568_104024397_103990256_103956144_103922062_103888010_103853987_103819993_103786030_103752096_103718191_103684316_103650471_103616656_103582870_103549114_103515387_103481691_103448024_103414387_103380779_103347202_103313654_103280136_103246648_103213189_103179761_103146362_103112993_103079655_103046346_103013067_102979818_102946599_102913409_102880250_102847121_102814022_102780953_102747914_102714905_102681926_102648977_102616058_102583169_102550310_102517482_102484683_102451915_102419177_102386469_102353791_102321144_102288526_102255939_102223382_102190856_102158360_102125893_102093458_102061052_102028677_101996332_101964018_101931734_101899480_101867256_101835063_101802901_101770768_101738667_101706595_101674554_101642544_101610564_101578614_101546695_101514807_101482949_101451122_101419325_101387558_101355823_101324117_101292443_101260799_101229185_101197602_101166050_101134529_101103038_101071578_101040148_101008749_100977381_100946044_100914737_100883461_100852216_100821002_100789818_100758665_100727543_100696452_100665391_100634362_100603363_100572395_100541458_100510551_100479676_100448831_100418018_100387235_100356483_100325762_100295072_100264413_100233785_100203188_100172622_100142087_100111583_100081110_100050668_100020257_099989877_099959528_099929210_099898923_099868667_099838443_099808249_099778087_099747955_099717855_099687786_099657748_099627741_099597765_099567821_099537908_099508025_099478175_099448355_099418566_099388809_099359083_099329388_099299725_099270093_099240492_099210922_099181383_099151876_099122400_099092956_099063543_099034161_099004810_098975491_098946203_098916947_098887722_098858528_098829366_098800235_098771136_098742068_098713031_098684026_098655052_098626110_098597199_098568320_098539472_098510655_098481870_098453117_098424395_098395704_098367046_098338418_098309822_098281258_098252725_098224224_098195755_098167316_098138910_098110535_098082192_098053880_098025600_097997352_097969135_097940950_097912796_097884674_097856584_097828525_097800498_097772503_097744540_097716608_097688707_097660839_097633002_097605197_097577424_097549682,
  97521972_097494294_097466648_097439033_097411450_097383899_097356380_097328892_097301436_097274012_097246620_097219260_097191931_097164634_097137369_097110136_097082935_097055766_097028628_097001522_096974448_096947406_096920396_096893418_096866472_096839557_096812674_096785824_096759005_096732218_096705463_096678740_096652049_096625389_096598762_096572167_096545603_096519072_096492572_096466105_096439669_096413266_096386894_096360554_096334247_096307971_096281727_096255515_096229336_096203188_096177072_096150989_096124937_096098917_096072930_096046974_096021051_095995159_095969300_095943473_095917677_095891914_095866183_095840484_095814817_095789182_095763579_095738008_095712469_095686963_095661488_095636046_095610636_095585257_095559911_095534597_095509315_095484066_095458848_095433663_095408509_095383388_095358299_095333242_095308217_095283225_095258264_095233336_095208440_095183576_095158744_095133944_095109177_095084442_095059738_095035067_095010429_094985822_094961248_094936706_094912196_094887718_094863272_094838859_094814478_094790129_094765812_094741527_094717275_094693055_094668867_094644711_094620588_094596496_094572437_094548411_094524416_094500454_094476524_094452626_094428760_094404927_094381126_094357357_094333620_094309916_094286244_094262604_094238996_094215421_094191878_094168367_094144889_094121442_094098028_094074647_094051297_094027980_094004695_093981442_093958222_093935034_093911878_093888754_093865663_093842604_093819577_093796582_093773620_093750690_093727793_093704927_093682094_093659293_093636525_093613789_093591085_093568413_093545774_093523167_093500592_093478049_093455539_093433061_093410616_093388202_093365821_093343473_093321156_093298872_093276620_093254400_093232213_093210058_093187935_093165845_093143787_093121761_093099767_093077806_093055877_093033981_093012116_092990284_092968484_092946717_092924981_092903278_092881608_092859969_092838363_092816789_092795248_092773739_092752262_092730817_092709404_092688024_092666676_092645361_092624078_092602826_092581608_092560421_092539267_092518145_092497055_092475998_092454973_092433980_092413019_092392091_092371195_092350331_092329499_092308700_092287933_092267198_092246496_092225825_092205187_092184581_092164008_092143466_092122957_092102480_092082036_092061623_092041243_092020895_092000580_091980296_091960045_091939826_091919639_091899484_091879362_091859272_091839214_091819188_091799195_091779233_091759304_091739407_091719542_091699710_091679909_091660141_091640405_091620701_091601030_091581390_091561783_091542208_091522665_091503154,
  91483675_091464229_091444815_091425432_091406082_091386764_091367479_091348225_091329004_091309814_091290657_091271532_091252439_091233378_091214349_091195353_091176388_091157456_091138555_091119687_091100851_091082047_091063275_091044535_091025827_091007151_090988508_090969896_090951317_090932769_090914254_090895770_090877319_090858899_090840512_090822157_090803834_090785542_090767283_090749056_090730861_090712698_090694567_090676467_090658400_090640365_090622362_090604391_090586451_090568544_090550669_090532825_090515014_090497234_090479487_090461771_090444087_090426436_090408816_090391228_090373672_090356148_090338656_090321195_090303767_090286370_090269006_090251673_090234372_090217103_090199866_090182660_090165487_090148345_090131235_090114157_090097111_090080097_090063114_090046164_090029245_090012358_089995502_089978679_089961887_089945127_089928399_089911702_089895038_089878405_089861803_089845234_089828696_089812190_089795716_089779273_089762862_089746483_089730135_089713819_089697535_089681283_089665062_089648873_089632715_089616589_089600495_089584432_089568401_089552402_089536434_089520498_089504593_089488720_089472879_089457069_089441291_089425544_089409829_089394145_089378493_089362872_089347283_089331726_089316200_089300705_089285242_089269811_089254411_089239042_089223705_089208399_089193125_089177882_089162671_089147491_089132343_089117226_089102140_089087086_089072063_089057071_089042111_089027182_089012285_088997419_088982584_088967781_088953009_088938268_088923558_088908880_088894233_088879618_088865034_088850481_088835959_088821468_088807009_088792581_088778184_088763818_088749484_088735181_088720909_088706668_088692458_088678280_088664132_088650016_088635931_088621877_088607854_088593862_088579902_088565972_088552074_088538206_088524370_088510565_088496791_088483047_088469335_088455654_088442004_088428385_088414797_088401240_088387713_088374218_088360754_088347321_088333918_088320547_088307206_088293897_088280618_088267370_088254153_088240967_088227811_088214687_088201593_088188531_088175499_088162498_088149527_088136588_088123679_088110801_088097954_088085137_088072351_088059596_088046872_088034178_088021515_088008883_087996282_087983711_087971170_087958661_087946182_087933734_087921316_087908929_087896572_087884246_087871951_087859686_087847452_087835248_087823075_087810932_087798820_087786738_087774687_087762666_087750676_087738716_087726786_087714887_087703019_087691181_087679373_087667596_087655849_087644132_087632446_087620790_087609164_087597569_087586004_087574469_087562965_087551490,
  87540046_087528633_087517249_087505896_087494573_087483280_087472018_087460785_087449583_087438411_087427269_087416157_087405076_087394024_087383002_087372011_087361050_087350118_087339217_087328346_087317505_087306693_087295912_087285161_087274440_087263749_087253087_087242456_087231854_087221283_087210741_087200229_087189748_087179296_087168873_087158481_087148119_087137786_087127483_087117210_087106967_087096753_087086569_087076415_087066291_087056196_087046131_087036096_087026090_087016114_087006168_086996251_086986364_086976507_086966679_086956881_086947112_086937373_086927664_086917983_086908333_086898712_086889120_086879558_086870026_086860522_086851049_086841604_086832190_086822804_086813448_086804121_086794824_086785556_086776317_086767108_086757927_086748777_086739655_086730563_086721500_086712466_086703461_086694486_086685540_086676623_086667735_086658876_086650046_086641246_086632474_086623732_086615019_086606335_086597680_086589054_086580457_086571889_086563350_086554840_086546358_086537906_086529483_086521089_086512723_086504387_086496079_086487800_086479551_086471329_086463137_086454974_086446839_086438733_086430656_086422608_086414588_086406597_086398635_086390701_086382796_086374920_086367073_086359254_086351463_086343701_086335968_086328264_086320588_086312940_086305321_086297731_086290169_086282635_086275130_086267653_086260205_086252785_086245394_086238031_086230696_086223390_086216112_086208863_086201641_086194448_086187284_086180147_086173039_086165959_086158907_086151883_086144888_086137921_086130982_086124071_086117188_086110333_086103506_086096708_086089937_086083195_086076480_086069794_086063135_086056505_086049902_086043328_086036781_086030262_086023772_086017309_086010873_086004466_085998087_085991735_085985411_085979115_085972847_085966606_085960394_085954209_085948051_085941922_085935819_085929745_085923698_085917679_085911688_085905724_085899787_085893879_085887997_085882144_085876317_085870518_085864747_085859003_085853287_085847598_085841936_085836302_085830695_085825116_085819563_085814039_085808541_085803071_085797628_085792212_085786823_085781462_085776128_085770821_085765541_085760288_085755063_085749865_085744693_085739549_085734432_085729342_085724278_085719242_085714233_085709251_085704296_085699368_085694466_085689592_085684744_085679924_085675130_085670363_085665622_085660909_085656222_085651563_085646929_085642323_085637743_085633190_085628664_085624164_085619691_085615245_085610825_085606432_085602065_085597725_085593411_085589124_085584864_085580629_085576422_085572241,
  85568086_085563957_085559855_085555780_085551730_085547707_085543711_085539740_085535796_085531878_085527987_085524121_085520282_085516469_085512682_085508921_085505187_085501478_085497796_085494140_085490509_085486905_085483327_085479775_085476249_085472748_085469274_085465826_085462403_085459006_085455636_085452291_085448972_085445678_085442411_085439169_085435953_085432763_085429599_085426460_085423347_085420259_085417197_085414161_085411150_085408165_085405206_085402272_085399364_085396481_085393623_085390791_085387985_085385204_085382448_085379718_085377013_085374334_085371679_085369050_085366447_085363869_085361316_085358788_085356285_085353808_085351355_085348928_085346526_085344150_085341798_085339471_085337170_085334893_085332642_085330415_085328214_085326037_085323885_085321759_085319657_085317580_085315528_085313501_085311498_085309521_085307568_085305640_085303737_085301858_085300004_085298175_085296371_085294591_085292835_085291105_085289399_085287717_085286060_085284428_085282820_085281237_085279678_085278143_085276633_085275147_085273686_085272249_085270836_085269448_085268084_085266744_085265429_085264138_085262871_085261628_085260409_085259215_085258045_085256899_085255777_085254679_085253605_085252555_085251529_085250527_085249549_085248595_085247665_085246759_085245877_085245018_085244184_085243373_085242586_085241823_085241084_085240368_085239676_085239008_085238364_085237743_085237146_085236573_085236023_085235496_085234994_085234514_085234059_085233626_085233218_085232832_085232471_085232132_085231817_085231525_085231257_085231012_085230790_085230592_085230417_085230265_085230136_085230031_085229949_085229890_085229854_085229841_085229851_085229884_085229941_085230020_085230122_085230248_085230396_085230568_085230762_085230979_085231219_085231482_085231768_085232076_085232407_085232762_085233138_085233538_085233960_085234405_085234873_085235363_085235876_085236412_085236970_085237551_085238154_085238780_085239428_085240099_085240792_085241507_085242245_085243006_085243789_085244594_085245421_085246271_085247143_085248037_085248953_085249892_085250853_085251836_085252841_085253869_085254918_085255989_085257083_085258199_085259336_085260496_085261677_085262881_085264106_085265354_085266623_085267914_085269227_085270562_085271918_085273296_085274696_085276118_085277562_085279027_085280514_085282022_085283552_085285104_085286677_085288272_085289888_085291526_085293185_085294866_085296568_085298292_085300037_085301803_085303591_085305400_085307230_085309082_085310955_085312849_085314764_085316701,
  85318659_085320638_085322638_085324659_085326701_085328764_085330848_085332953_085335080_085337227_085339395_085341584_085343794_085346025_085348276_085350549_085352842_085355156_085357491_085359847_085362223_085364620_085367038_085369476_085371935_085374415_085376915_085379436_085381977_085384538_085387121_085389723_085392347_085394990_085397654_085400338_085403043_085405768_085408513_085411279_085414065_085416871_085419697_085422544_085425410_085428297_085431204_085434131_085437078_085440045_085443032_085446039_085449066_085452114_085455181_085458268_085461374_085464501_085467648_085470814_085474000_085477206_085480432_085483677_085486942_085490227_085493532_085496856_085500199_085503563_085506946_085510348_085513770_085517211_085520672_085524153_085527652_085531171_085534710_085538268_085541845_085545442_085549058_085552693_085556347_085560020_085563713_085567425_085571156_085574906_085578675_085582464_085586271_085590098_085593943_085597807_085601691_085605593_085609514_085613454_085617413_085621391_085625388_085629403_085633437_085637490_085641562_085645652_085649761_085653888_085658035_085662200_085666383_085670585_085674806_085679045_085683302_085687578_085691872_085696185_085700517_085704866_085709234_085713620_085718025_085722448_085726889_085731348_085735825_085740321_085744835_085749367_085753917_085758485_085763071_085767675_085772298_085776938_085781596_085786272_085790966_085795678_085800408_085805155_085809921_085814704_085819505_085824324_085829160_085834014_085838886_085843776_085848683_085853607_085858550_085863509_085868487_085873482_085878494_085883524_085888571_085893636_085898718_085903817_085908934_085914068_085919219_085924388_085929574_085934777_085939997_085945235_085950489_085955761_085961050_085966356_085971679_085977019_085982376_085987750_085993140_085998548_086003973_086009415_086014873_086020348_086025841_086031349_086036875_086042417_086047977_086053552_086059145_086064754_086070380_086076022_086081681_086087356_086093048_086098757_086104481_086110223_086115980_086121755_086127545_086133352_086139175_086145015_086150870_086156742_086162631_086168535_086174456_086180393_086186346_086192315_086198300_086204301_086210318_086216351_086222400_086228465_086234547_086240644_086246756_086252885_086259030_086265190_086271366_086277558_086283766_086289989_086296228_086302483_086308754_086315040_086321341_086327658_086333991_086340339_086346703_086353082_086359477_086365887_086372313_086378753_086385210_086391681_086398168_086404670_086411187_086417720_086424268_086430831_086437409_086444002,
  86450611_086457234_086463873_086470526_086477195_086483878_086490577_086497290_086504018_086510762_086517520_086524293_086531080_086537883_086544700_086551532_086558379_086565240_086572116_086579007_086585912_086592832_086599767_086606716_086613680_086620658_086627650_086634657_086641678_086648714_086655764_086662829_086669908_086677001_086684108_086691230_086698366_086705516_086712680_086719858_086727051_086734258_086741478_086748713_086755962_086763225_086770501_086777792_086785097_086792415_086799748_086807094_086814454_086821828_086829216_086836617_086844032_086851461_086858904_086866360_086873830_086881313_086888810_086896321_086903845_086911383_086918934_086926499_086934077_086941668_086949273_086956891_086964523_086972168_086979826_086987497_086995182_087002880_087010591_087018315_087026053_087033803_087041567_087049343_087057133_087064936_087072752_087080580_087088422_087096277_087104144_087112024_087119918_087127824_087135743_087143674_087151618_087159576_087167545_087175528_087183523_087191531_087199551_087207584_087215629_087223687_087231758_087239841_087247936_087256044_087264164_087272297_087280442_087288599_087296769_087304951_087313145_087321352_087329570_087337801_087346044_087354299_087362566_087370846_087379137_087387440_087395756_087404083_087412423_087420774_087429137_087437512_087445899_087454298_087462709_087471131_087479565_087488011_087496469_087504938_087513419_087521912_087530416_087538932_087547460_087555999_087564549_087573111_087581685_087590270_087598866_087607474_087616093_087624724_087633366_087642019_087650683_087659359_087668046_087676744_087685453_087694173_087702905_087711648_087720401_087729166_087737942_087746729_087755527_087764336_087773155_087781986_087790828_087799680_087808543_087817417_087826302_087835198_087844104_087853021_087861949_087870887_087879836_087888796_087897766_087906747_087915739_087924741_087933753_087942776_087951809_087960853_087969907_087978972_087988046_087997132_088006227_088015333_088024449_088033575_088042712_088051858_088061015_088070182_088079359_088088546_088097743_088106951_088116168_088125395_088134632_088143879_088153136_088162403_088171680_088180966_088190263_088199569_088208885_088218211_088227546_088236891_088246246_088255611_088264985_088274368_088283762_088293164_088302577_088311998_088321430_088330870_088340321_088349780_088359249_088368727_088378215_088387712_088397218_088406734_088416258_088425792_088435335_088444888_088454449_088464020_088473599_088483188_088492786_088502392_088512008_088521633_088531266_088540909_088550560_088560221,
  88569890_088579568_088589255_088598950_088608655_088618368_088628090_088637820_088647559_088657307_088667063_088676828_088686602_088696384_088706174_088715973_088725781_088735597_088745421_088755254_088765095_088774944_088784802_088794668_088804542_088814425_088824316_088834215_088844122_088854037_088863961_088873893_088883832_088893780_088903736_088913699_088923671_088933651_088943639_088953634_088963638_088973649_088983668_088993695_089003730_089013773_089023823_089033881_089043947_089054020_089064101_089074190_089084286_089094390_089104502_089114621_089124747_089134881_089145022_089155171_089165328_089175491_089185662_089195841_089206027_089216220_089226420_089236628_089246842_089257064_089267294_089277530_089287773_089298024_089308282_089318546_089328818_089339097_089349383_089359675_089369975_089380282_089390595_089400916_089411243_089421577_089431918_089442266_089452620_089462981_089473349_089483723_089494105_089504493_089514887_089525288_089535696_089546110_089556531_089566958_089577392_089587832_089598278_089608731_089619191_089629656_089640128_089650607_089661091_089671582_089682080_089692583_089703093_089713608_089724130_089734658_089745193_089755733_089766279_089776831_089787390_089797954_089808524_089819101_089829683_089840271_089850865_089861465_089872070_089882682_089893299_089903922_089914551_089925185_089935825_089946471_089957123_089967780_089978442_089989110_089999784_090010464_090021148_090031839_090042534_090053236_090063942_090074654_090085372_090096094_090106822_090117556_090128294_090139038_090149787_090160542_090171301_090182066_090192836_090203611_090214391_090225176_090235966_090246761_090257561_090268366_090279176_090289992_090300811_090311636_090322466_090333301_090344140_090354984_090365833_090376687_090387545_090398409_090409277_090420149_090431026_090441908_090452794_090463685_090474581_090485481_090496386_090507295_090518208_090529126_090540049_090550975_090561906_090572842_090583782_090594726_090605674_090616627_090627584_090638545_090649510_090660480_090671454_090682431_090693413_090704399_090715389_090726383_090737381_090748384_090759390_090770400_090781414_090792431_090803453_090814479_090825508_090836541_090847579_090858619_090869664_090880712_090891764_090902820_090913879_090924942_090936009_090947079_090958153_090969230_090980311_090991396_091002484_091013575_091024670_091035768_091046870_091057975_091069083_091080195_091091310_091102428_091113550_091124674_091135802_091146934_091158068_091169206_091180346_091191490_091202637_091213787_091224940_091236096_091247256_091258418,
  91269583_091280751_091291922_091303096_091314272_091325452_091336634_091347820_091359008_091370198_091381392_091392588_091403787_091414989_091426193_091437400_091448610_091459822_091471037_091482254_091493474_091504696_091515921_091527149_091538379_091549611_091560845_091572083_091583322_091594564_091605808_091617054_091628303_091639554_091650807_091662062_091673320_091684580_091695842_091707106_091718372_091729640_091740911_091752183_091763457_091774734_091786012_091797293_091808575_091819859_091831145_091842433_091853723_091865015_091876309_091887604_091898901_091910200_091921501_091932803_091944107_091955413_091966720_091978029_091989340_092000652_092011966_092023281_092034598_092045916_092057236_092068558_092079880_092091205_092102530_092113857_092125186_092136515_092147846_092159179_092170512_092181847_092193183_092204521_092215859_092227199_092238540_092249882_092261225_092272569_092283915_092295261_092306608_092317957_092329306_092340657_092352008_092363361_092374714_092386068_092397423_092408779_092420135_092431493_092442851_092454210_092465570_092476931_092488292_092499654_092511017_092522380_092533744_092545109_092556474_092567840_092579206_092590573_092601940_092613308_092624676_092636045_092647414_092658784_092670154_092681525_092692895_092704267_092715638_092727010_092738382_092749754_092761127_092772499_092783872_092795245_092806619_092817992_092829366_092840739_092852113_092863487_092874861_092886234_092897608_092908982_092920356_092931730_092943104_092954477_092965851_092977224_092988597_092999970_093011343_093022716_093034088_093045460_093056832_093068204_093079575_093090946_093102317_093113687_093125057_093136427_093147796_093159164_093170532_093181900_093193267_093204634_093216000_093227366_093238731_093250095_093261459_093272822_093284185_093295547_093306908_093318269_093329628_093340988_093352346_093363703_093375060_093386416_093397771_093409125_093420479_093431831_093443183_093454533_093465883_093477232_093488579_093499926_093511272_093522616_093533960_093545302_093556644_093567984_093579323_093590661_093601998_093613334_093624668_093636001_093647333_093658664_093669994_093681322_093692649_093703974_093715298_093726621_093737942_093749262_093760581_093771898_093783214_093794528_093805840_093817152_093828461_093839769_093851076_093862381_093873684_093884986_093896286_093907584_093918881_093930176_093941469_093952760_093964050_093975338_093986624_093997909_094009192_094020472_094031751_094043028_094054303_094065577_094076848_094088117_094099385_094110650_094121914_094133175_094144434_094155692,
  94166947_094178200_094189451_094200700_094211947_094223192_094234434_094245674_094256912_094268148_094279382_094290613_094301842_094313069_094324294_094335516_094346736_094357953_094369168_094380381_094391591_094402799_094414004_094425207_094436407_094447605_094458801_094469993_094481184_094492371_094503557_094514739_094525919_094537096_094548271_094559443_094570612_094581779_094592943_094604104_094615262_094626418_094637570_094648720_094659868_094671012_094682153_094693292_094704428_094715561_094726690_094737817_094748941_094760062_094771180_094782295_094793407_094804516_094815622_094826725_094837825_094848922_094860015_094871106_094882193_094893277_094904358_094915435_094926510_094937581_094948649_094959714_094970775_094981834_094992888_095003940_095014988_095026033_095037074_095048112_095059147_095070178_095081206_095092230_095103251_095114268_095125282_095136292_095147299_095158302_095169302_095180298_095191290_095202279_095213265_095224246_095235224_095246198_095257169_095268135_095279099_095290058_095301013_095311965_095322913_095333857_095344798_095355734_095366667_095377596_095388521_095399442_095410359_095421272_095432181_095443087_095453988_095464885_095475779_095486668_095497553_095508434_095519312_095530185_095541054_095551919_095562779_095573636_095584488_095595337_095606181_095617021_095627856_095638688_095649515_095660338_095671156_095681971_095692781_095703586_095714388_095725185_095735978_095746766_095757550_095768329_095779104_095789875_095800641_095811403_095822160_095832913_095843661_095854405_095865144_095875878_095886608_095897334_095908055_095918771_095929482_095940189_095950892_095961589_095972282_095982970_095993654_096004333_096015007_096025676_096036340_096047000_096057655_096068305_096078950_096089591_096100226_096110857_096121483_096132104_096142720_096153331_096163937_096174538_096185134_096195726_096206312_096216893_096227469_096238040_096248606_096259168_096269723_096280274_096290820_096301361_096311896_096322427_096332952_096343472_096353987_096364496_096375001_096385500_096395994_096406482_096416966_096427444_096437917_096448384_096458846_096469303_096479755_096490201_096500642_096511077_096521507_096531931_096542350_096552764_096563172_096573575_096583972_096594364_096604750_096615131_096625506_096635876_096646240_096656598_096666951_096677299_096687640_096697976_096708307_096718632_096728951_096739264_096749572_096759874_096770170_096780461_096790746_096801025_096811298_096821565_096831827_096842083_096852333_096862578_096872816_096883049_096893275_096903496_096913711_096923920,
  96934123_096944320_096954512_096964697_096974876_096985049_096995217_097005378_097015533_097025683_097035826_097045963_097056094_097066219_097076338_097086451_097096558_097106658_097116753_097126841_097136923_097146999_097157069_097167133_097177190_097187241_097197286_097207325_097217357_097227383_097237403_097247417_097257424_097267425_097277420_097287408_097297390_097307365_097317335_097327297_097337254_097347204_097357147_097367084_097377015_097386939_097396857_097406768_097416673_097426571_097436463_097446348_097456227_097466099_097475965_097485824_097495676_097505522_097515361_097525194_097535020_097544839_097554652_097564458_097574257_097584050_097593836_097603615_097613388_097623154_097632913_097642665_097652411_097662150_097671882_097681607_097691325_097701037_097710742_097720440_097730131_097739815_097749493_097759163_097768827_097778484_097788133_097797776_097807412_097817041_097826663_097836279_097845887_097855488_097865082_097874669_097884249_097893822_097903389_097912948_097922500_097932044_097941582_097951113_097960637_097970153_097979663_097989165_097998660_098008148_098017629_098027103_098036569_098046029_098055481_098064926_098074363_098083794_098093217_098102633_098112042_098121443_098130837_098140224_098149604_098158976_098168341_098177699_098187049_098196392_098205727_098215056_098224376_098233690_098242996_098252295_098261586_098270870_098280146_098289415_098298677_098307931_098317177_098326416_098335648_098344872_098354089_098363298_098372499_098381693_098390880_098400059_098409230_098418394_098427550_098436698_098445839_098454973_098464099_098473217_098482327_098491430_098500525_098509613_098518693_098527765_098536829_098545886_098554935_098563977_098573010_098582036_098591054_098600065_098609068_098618062_098627050_098636029_098645000_098653964_098662920_098671868_098680808_098689741_098698665_098707582_098716491_098725392_098734285_098743170_098752048_098760917_098769778_098778632_098787478_098796315_098805145_098813967_098822781_098831587_098840385_098849174_098857956_098866730_098875496_098884254_098893004_098901746_098910479_098919205_098927923_098936632_098945334_098954027_098962713_098971390_098980059_098988720_098997373_099006017_099014654_099023283_099031903_099040515_099049119_099057715_099066302_099074882_099083453_099092016_099100571_099109117_099117656_099126186_099134708_099143221_099151727_099160224_099168712_099177193_099185665_099194129_099202585_099211032_099219471_099227902_099236324_099244738_099253144_099261541_099269930_099278311_099286683_099295047_099303402_099311749,
  99320088_099328418_099336740_099345053_099353358_099361654_099369943_099378222_099386493_099394756_099403010_099411256_099419493_099427722_099435942_099444154_099452357_099460552_099468738_099476916_099485085_099493246_099501398_099509541_099517676_099525802_099533920_099542029_099550130_099558222_099566305_099574380_099582446_099590504_099598553_099606593_099614625_099622648_099630662_099638668_099646665_099654653_099662633_099670604_099678566_099686520_099694465_099702401_099710328_099718247_099726157_099734058_099741951_099749835_099757710_099765576_099773434_099781283_099789123_099796954_099804776_099812590_099820395_099828191_099835978_099843757_099851527_099859288_099867040_099874783_099882517_099890243_099897959_099905667_099913366_099921056_099928737_099936410_099944073_099951728_099959373_099967010_099974638_099982257_099989867_099997468_100005060_100012644_100020218_100027784_100035340_100042888_100050426_100057956_100065476_100072988_100080491_100087985_100095469_100102945_100110412_100117870_100125318_100132758_100140189_100147611_100155023_100162427_100169822_100177207_100184584_100191952_100199310_100206660_100214000_100221331_100228653_100235967_100243271_100250566_100257852_100265129_100272396_100279655_100286905_100294145_100301376_100308599_100315812_100323016_100330210_100337396_100344573_100351740_100358899_100366048_100373188_100380318_100387440_100394553_100401656_100408750_100415835_100422911_100429978_100437035_100444083_100451122_100458152_100465173_100472184_100479186_100486179_100493163_100500138_100507103_100514059_100521006_100527944_100534872_100541791_100548701_100555602_100562493_100569375_100576248_100583112_100589966_100596811_100603647_100610473_100617290_100624098_100630897_100637686_100644466_100651237_100657999_100664751_100671494_100678227_100684951_100691666_100698372_100705068_100711755_100718432_100725101_100731759_100738409_100745049_100751680_100758301_100764914_100771516_100778110_100784694_100791269_100797834_100804390_100810937_100817474_100824002_100830520_100837029_100843529_100850019_100856500_100862972_100869434_100875886_100882330_100888764_100895188_100901603_100908009_100914405_100920792_100927169_100933537_100939896_100946245_100952585_100958915_100965236_100971547_100977849_100984142_100990425_100996699_101002963_101009218_101015463_101021699_101027925_101034142_101040350_101046548_101052736_101058915_101065085_101071245_101077396_101083537_101089669_101095791_101101904_101108007_101114101_101120185_101126260_101132325_101138381_101144427_101150464_101156491,
  101162509_101168518_101174517_101180506_101186486_101192456_101198417_101204368_101210310_101216242_101222165_101228078_101233982_101239876_101245761_101251636_101257502_101263358_101269205_101275042_101280869_101286688_101292496_101298295_101304084_101309864_101315635_101321396_101327147_101332889_101338621_101344344_101350057_101355760_101361454_101367139_101372814_101378479_101384135_101389782_101395418_101401046_101406663_101412271_101417870_101423459_101429039_101434608_101440169_101445720_101451261_101456793_101462315_101467827_101473330_101478824_101484308_101489782_101495247_101500702_101506147_101511584_101517010_101522427_101527834_101533232_101538620_101543999_101549368_101554728_101560078_101565418_101570749_101576070_101581382_101586684_101591977_101597260_101602533_101607797_101613051_101618296_101623531_101628756_101633972_101639179_101644376_101649563_101654741_101659909_101665067_101670216_101675356_101680486_101685606_101690717_101695818_101700909_101705991_101711064_101716127_101721180_101726224_101731258_101736282_101741297_101746303_101751299_101756285_101761262_101766229_101771187_101776135_101781073_101786002_101790921_101795831_101800731_101805622_101810503_101815375_101820237_101825089_101829932_101834765_101839589_101844403_101849208_101854003_101858788_101863564_101868331_101873087_101877835_101882572_101887301_101892019_101896728_101901428_101906118_101910798_101915469_101920130_101924782_101929425_101934057_101938680_101943294_101947898_101952493_101957078_101961653_101966219_101970776_101975323_101979860_101984388_101988906_101993415_101997914_102002404_102006884_102011355_102015816_102020267_102024710_102029142_102033565_102037979_102042383_102046777_102051162_102055538_102059904_102064261_102068608_102072945_102077273_102081592_102085901_102090200_102094490_102098771_102103042_102107303_102111555_102115798_102120031_102124255_102128469_102132674_102136869_102141054_102145231_102149397_102153555_102157703_102161841_102165970_102170089_102174199_102178300_102182391_102186472_102190545_102194607_102198661_102202704_102206739_102210764_102214779_102218785_102222782_102226769_102230747_102234715_102238674_102242624_102246564_102250494_102254416_102258327_102262230_102266123_102270006_102273881_102277745_102281601_102285447_102289283_102293110_102296928_102300737_102304536_102308325_102312106_102315877_102319638_102323390_102327133_102330866_102334590_102338305_102342010_102345706_102349393_102353070_102356738_102360397_102364046_102367686_102371316_102374937_102378549_102382152_102385745,
  102389329_102392904_102396469_102400025_102403571_102407109_102410637_102414155_102417665_102421165_102424656_102428137_102431610_102435073_102438526_102441971_102445406_102448832_102452248_102455655_102459054_102462442_102465822_102469192_102472553_102475905_102479247_102482581_102485905_102489220_102492525_102495822_102499109_102502387_102505655_102508915_102512165_102515406_102518638_102521861_102525074_102528279_102531474_102534660_102537837_102541004_102544163_102547312_102550452_102553583_102556704_102559817_102562920_102566015_102569100_102572176_102575243_102578300_102581349_102584388_102587419_102590440_102593452_102596455_102599449_102602434_102605409_102608376_102611334_102614282_102617221_102620152_102623073_102625985_102628888_102631782_102634667_102637543_102640409_102643267_102646116_102648956_102651786_102654608_102657420_102660224_102663018_102665804_102668580_102671348_102674106_102676856_102679597_102682328_102685051_102687764_102690469_102693164_102695851_102698529_102701197_102703857_102706508_102709150_102711783_102714407_102717022_102719628_102722225_102724813_102727393_102729963_102732525_102735078_102737621_102740156_102742682_102745199_102747707_102750207_102752697_102755179_102757652_102760116_102762571_102765017_102767454_102769883_102772303_102774713_102777115_102779509_102781893_102784269_102786636_102788994_102791343_102793683_102796015_102798338_102800652_102802957_102805254_102807542_102809821_102812091_102814353_102816606_102818850_102821085_102823312_102825530_102827739_102829940_102832131_102834314_102836489_102838655_102840812_102842960_102845100_102847231_102849353_102851467_102853572_102855669_102857756_102859836_102861906_102863968_102866021_102868066_102870102_102872130_102874148_102876159_102878160_102880153_102882138_102884114_102886081_102888040_102889991_102891932_102893865_102895790_102897706_102899614_102901513_102903404_102905286_102907159_102909024_102910881_102912729_102914568_102916400_102918222_102920036_102921842_102923639_102925428_102927209_102928981_102930744_102932499_102934246_102935984_102937714_102939435_102941148_102942853_102944549_102946237_102947917_102949588_102951251_102952905_102954551_102956189_102957818_102959439_102961052_102962657_102964253_102965841_102967420_102968991_102970554_102972109_102973655_102975193_102976723_102978245_102979758_102981263_102982760_102984249_102985729_102987201_102988665_102990121_102991568_102993008_102994439_102995862_102997276_102998683_103000081_103001472_103002854_103004228_103005593_103006951_103008301_103009642,
  103010975_103012301_103013618_103014927_103016228_103017520_103018805_103020082_103021350_103022611_103023864_103025108_103026344_103027573_103028793_103030005_103031210_103032406_103033594_103034775_103035947_103037111_103038268_103039416_103040557_103041689_103042814_103043930_103045039_103046140_103047232_103048317_103049394_103050463_103051525_103052578_103053623_103054661_103055691_103056712_103057726_103058733_103059731_103060721_103061704_103062679_103063646_103064605_103065556_103066500_103067436_103068364_103069284_103070196_103071101_103071998_103072887_103073769_103074643_103075509_103076367_103077218_103078061_103078896_103079723_103080543_103081355_103082160_103082957_103083746_103084527_103085301_103086067_103086826_103087577_103088321_103089056_103089785_103090505_103091218_103091924_103092622_103093312_103093995_103094670_103095338_103095998_103096650_103097295_103097933_103098563_103099186_103099801_103100408_103101009_103101601_103102187_103102764_103103335_103103898_103104453_103105001_103105542_103106075_103106601_103107119_103107630_103108134_103108630_103109119_103109600_103110075_103110542_103111001_103111453_103111898_103112336_103112766_103113189_103113605_103114013_103114414_103114808_103115195_103115574_103115946_103116311_103116669_103117019_103117362_103117698_103118027_103118348_103118663_103118970_103119270_103119563_103119849_103120127_103120399_103120663_103120920_103121171_103121414_103121649_103121878_103122100_103122315_103122522_103122723_103122916_103123102_103123282_103123454_103123620_103123778_103123929_103124073_103124211_103124341_103124464_103124581_103124690_103124793_103124888_103124977_103125058_103125133_103125201_103125262_103125316_103125363_103125403_103125437_103125463_103125483_103125496_103125502_103125501_103125493_103125479_103125457_103125429_103125394_103125353_103125304_103125249_103125187_103125118_103125043_103124960_103124871_103124776_103124673_103124564_103124448_103124326_103124197_103124061_103123918_103123769_103123613_103123451_103123282_103123106_103122924_103122735_103122539_103122337_103122129_103121913_103121691_103121463_103121228_103120987_103120739_103120484_103120223_103119955_103119681_103119401_103119114_103118820_103118520_103118214_103117901_103117581_103117256_103116923_103116585_103116240_103115888_103115530_103115166_103114796_103114419_103114035_103113646_103113250_103112847_103112439_103112024_103111602_103111175_103110741_103110301_103109854_103109401_103108942_103108477_103108006_103107528_103107044_103106554_103106057_103105555,
  103105046_103104531_103104010_103103483_103102949_103102410_103101864_103101312_103100754_103100190_103099620_103099044_103098461_103097873_103097278_103096678_103096071_103095458_103094840_103094215_103093584_103092947_103092304_103091656_103091001_103090340_103089673_103089001_103088322_103087637_103086947_103086250_103085548_103084840_103084126_103083406_103082680_103081948_103081210_103080467_103079717_103078962_103078201_103077434_103076661_103075883_103075098_103074308_103073512_103072711_103071903_103071090_103070271_103069447_103068616_103067780_103066939_103066091_103065238_103064379_103063515_103062644_103061768_103060887_103060000_103059107_103058209_103057305_103056395_103055480_103054559_103053633_103052701_103051763_103050820_103049872_103048918_103047958_103046993_103046022_103045046_103044064_103043077_103042085_103041087_103040083_103039074_103038060_103037040_103036015_103034984_103033948_103032907_103031860_103030808_103029750_103028687_103027619_103026545_103025466_103024382_103023293_103022198_103021098_103019992_103018881_103017765_103016644_103015518_103014386_103013249_103012107_103010960_103009807_103008649_103007486_103006318_103005145_103003966_103002783_103001594_103000400_102999201_102997997_102996788_102995573_102994354_102993130_102991900_102990665_102989426_102988181_102986931_102985677_102984417_102983152_102981882_102980607_102979328_102978043_102976753_102975459_102974159_102972855_102971545_102970231_102968912_102967588_102966259_102964925_102963586_102962242_102960894_102959540_102958182_102956819_102955452_102954079_102952702_102951319_102949932_102948541_102947144_102945743_102944337_102942926_102941511_102940091_102938666_102937236_102935802_102934363_102932920_102931471_102930018_102928561_102927099_102925632_102924160_102922684_102921204_102919719_102918229_102916734_102915236_102913732_102912224_102910712_102909195_102907673_102906147_102904616_102903081_102901542_102899998_102898449_102896896_102895339_102893777_102892211_102890641_102889066_102887486_102885902_102884314_102882722_102881125_102879523_102877918_102876308_102874694_102873075_102871452_102869825_102868194_102866558_102864918_102863274_102861625_102859973_102858316_102856655_102854989_102853320_102851646_102849968_102848286_102846600_102844909_102843215_102841516_102839813_102838106_102836395_102834680_102832961_102831237_102829510_102827778_102826043_102824303_102822560_102820812_102819060_102817305_102815545_102813781_102812014_102810242_102808467_102806687_102804904_102803116_102801325_102799530_102797731,
  102795927_102794121_102792310_102790495_102788677_102786854_102785028_102783198_102781364_102779526_102777685_102775839_102773990_102772138_102770281_102768421_102766556_102764689_102762817_102760942_102759063_102757180_102755293_102753403_102751509_102749612_102747711_102745806_102743898_102741986_102740070_102738151_102736228_102734301_102732371_102730438_102728500_102726560_102724615_102722668_102720716_102718761_102716803_102714841_102712876_102710907_102708935_102706959_102704980_102702997_102701011_102699021_102697028_102695032_102693032_102691029_102689022_102687012_102684999_102682983_102680963_102678939_102676913_102674883_102672849_102670813_102668773_102666730_102664683_102662634_102660581_102658525_102656465_102654403_102652337_102650268_102648196_102646120_102644042_102641960_102639875_102637787_102635696_102633601_102631504_102629403_102627300_102625193_102623083_102620970_102618854_102616735_102614613_102612488_102610360_102608229_102606094_102603957_102601817_102599674_102597528_102595378_102593226_102591071_102588913_102586752_102584589_102582422_102580252_102578080_102575904_102573726_102571545_102569361_102567174_102564984_102562792_102560596_102558398_102556197_102553993_102551787_102549577_102547365_102545151_102542933_102540713_102538490_102536264_102534035_102531804_102529570_102527334_102525094_102522853_102520608_102518361_102516111_102513858_102511603_102509346_102507085_102504823_102502557_102500289_102498018_102495745_102493469_102491191_102488910_102486627_102484341_102482053_102479762_102477469_102475173_102472875_102470574_102468271_102465966_102463658_102461347_102459034_102456719_102454401_102452081_102449759_102447434_102445107_102442778_102440446_102438112_102435775_102433437_102431096_102428752_102426407_102424059_102421708_102419356_102417001_102414644_102412285_102409924_102407560_102405195_102402827_102400456_102398084_102395709_102393333_102390954_102388573_102386190_102383805_102381417_102379028_102376636_102374243_102371847_102369449_102367049_102364648_102362244_102359838_102357430_102355020_102352608_102350194_102347778_102345360_102342940_102340518_102338094_102335668_102333240_102330811_102328379_102325946_102323510_102321073_102318634_102316193_102313750_102311305_102308858_102306410_102303960_102301508_102299054_102296598_102294140_102291681_102289220_102286757_102284293_102281826_102279358_102276888_102274417_102271944_102269469_102266992_102264514_102262033_102259552_102257068_102254583_102252097_102249608_102247118_102244627_102242134_102239639_102237143_102234645,
  102232145_102229644_102227141_102224637_102222132_102219624_102217115_102214605_102212093_102209580_102207065_102204549_102202031_102199512_102196991_102194469_102191946_102189421_102186894_102184367_102181837_102179307_102176775_102174242_102171707_102169171_102166633_102164095_102161554_102159013_102156470_102153926_102151381_102148834_102146286_102143737_102141187_102138635_102136082_102133528_102130973_102128416_102125858_102123299_102120739_102118177_102115615_102113051_102110486_102107920_102105353_102102784_102100215_102097644_102095072_102092499_102089926_102087351_102084774_102082197_102079619_102077040_102074459_102071878_102069296_102066712_102064128_102061542_102058956_102056369_102053780_102051191_102048601_102046009_102043417_102040824_102038230_102035635_102033039_102030442_102027845_102025246_102022647_102020047_102017445_102014843_102012241_102009637_102007032_102004427_102001821_101999214_101996606_101993998_101991389_101988778_101986168_101983556_101980944_101978331_101975717_101973103_101970487_101967871_101965255_101962638_101960020_101957401_101954782_101952162_101949541_101946920_101944298_101941676_101939053_101936429_101933805_101931180_101928554_101925928_101923302_101920675_101918047_101915419_101912790_101910161_101907531_101904901_101902270_101899639_101897007_101894375_101891742_101889109_101886475_101883841_101881206_101878572_101875936_101873300_101870664_101868028_101865391_101862754_101860116_101857478_101854839_101852201_101849562_101846922_101844282_101841642_101839002_101836361_101833720_101831079_101828438_101825796_101823154_101820512_101817869_101815226_101812583_101809940_101807297_101804653_101802009_101799365_101796721_101794077_101791432_101788788_101786143_101783498_101780853_101778207_101775562_101772917_101770271_101767625_101764980_101762334_101759688_101757042_101754396_101751750_101749104_101746457_101743811_101741165_101738519_101735873_101733226_101730580_101727934_101725288_101722642_101719996_101717350_101714704_101712058_101709412_101706766_101704121_101701475_101698829_101696184_101693539_101690894_101688249_101685604_101682959_101680315_101677670_101675026_101672382_101669738_101667095_101664451_101661808_101659165_101656522_101653880_101651237_101648595_101645954_101643312_101640671_101638030_101635389_101632749_101630108_101627469_101624829_101622190_101619551_101616912_101614274_101611636_101608999_101606362_101603725_101601089_101598453_101595817_101593182_101590547_101587913_101585279_101582645_101580012_101577379_101574747_101572115_101569484_101566853,
  101564223_101561593_101558964_101556335_101553706_101551079_101548451_101545825_101543198_101540573_101537947_101535323_101532699_101530075_101527453_101524830_101522209_101519588_101516967_101514347_101511728_101509109_101506491_101503874_101501257_101498641_101496026_101493411_101490797_101488184_101485571_101482959_101480348_101477737_101475128_101472519_101469910_101467303_101464696_101462090_101459484_101456880_101454276_101451673_101449071_101446469_101443869_101441269_101438670_101436072_101433474_101430878_101428282_101425687_101423093_101420500_101417908_101415316_101412726_101410136_101407548_101404960_101402373_101399787_101397202_101394618_101392035_101389452_101386871_101384291_101381711_101379133_101376556_101373979_101371404_101368829_101366256_101363683_101361112_101358542_101355972_101353404_101350837_101348270_101345705_101343141_101340578_101338016_101335455_101332895_101330336_101327779_101325222_101322667_101320113_101317560_101315008_101312457_101309907_101307358_101304811_101302265_101299720_101297176_101294633_101292091_101289551_101287012_101284474_101281937_101279402_101276868_101274335_101271803_101269272_101266743_101264215_101261688_101259163_101256638_101254115_101251594_101249074_101246554_101244037_101241520_101239005_101236492_101233979_101231468_101228958_101226450_101223943_101221437_101218933_101216430_101213928_101211428_101208930_101206432_101203936_101201442_101198949_101196457_101193967_101191478_101188990_101186505_101184020_101181537_101179055_101176575_101174097_101171620_101169144_101166670_101164197_101161726_101159257_101156789_101154322_101151857_101149393_101146932_101144471_101142012_101139555_101137099_101134645_101132193_101129742_101127292_101124844_101122398_101119954_101117511_101115069_101112630_101110191_101107755_101105320_101102887_101100456_101098026_101095597_101093171_101090746_101088323_101085901_101083482_101081063_101078647_101076232_101073819_101071408_101068999_101066591_101064185_101061780_101059378_101056977_101054578_101052181_101049785_101047391_101044999_101042609_101040221_101037834_101035449_101033066_101030685_101028306_101025928_101023552_101021179_101018807_101016436_101014068_101011701_101009337_101006974_101004613_101002254_100999897_100997542_100995188_100992837_100990487_100988140_100985794_100983450_100981108_100978768_100976430_100974094_100971760_100969428_100967098_100964769_100962443_100960119_100957796_100955476_100953157_100950841_100948527_100946214_100943904_100941595_100939289_100936984_100934682_100932382_100930084_100927787,
  100925493_100923201_100920911_100918623_100916337_100914053_100911771_100909491_100907214_100904938_100902665_100900393_100898124_100895857_100893592_100891329_100889068_100886809_100884553_100882298_100880046_100877796_100875548_100873302_100871059_100868817_100866578_100864341_100862106_100859873_100857642_100855414_100853188_100850964_100848742_100846522_100844305_100842090_100839877_100837666_100835458_100833252_100831048_100828846_100826647_100824450_100822255_100820062_100817872_100815684_100813498_100811314_100809133_100806954_100804777_100802603_100800431_100798261_100796094_100793929_100791766_100789606_100787448_100785292_100783138_100780987_100778839_100776692_100774548_100772407_100770267_100768130_100765996_100763864_100761734_100759607_100757482_100755359_100753239_100751121_100749006_100746893_100744783_100742674_100740569_100738466_100736365_100734266_100732171_100730077_100727986_100725898_100723812_100721728_100719647_100717568_100715492_100713418_100711347_100709278_100707212_100705148_100703087_100701028_100698972_100696918_100694867_100692818_100690772_100688729_100686688_100684649_100682613_100680579_100678549_100676520_100674494_100672471_100670450_100668432_100666417_100664404_100662393_100660385_100658380_100656378_100654378_100652380_100650385_100648393_100646403_100644416_100642432_100640450_100638471_100636494_100634520_100632549_100630580_100628614_100626651_100624690_100622732_100620777_100618824_100616874_100614927_100612982_100611040_100609100_100607164_100605230_100603298_100601370_100599444_100597520_100595600_100593682_100591767_100589854_100587945_100586038_100584133_100582232_100580333_100578437_100576543_100574653_100572765_100570880_100568997_100567118_100565241_100563367_100561495_100559627_100557761_100555898_100554037_100552180_100550325_100548473_100546624_100544778_100542934_100541093_100539255_100537420_100535588_100533758_100531931_100530107_100528286_100526468_100524652_100522840_100521030_100519223_100517419_100515617_100513819_100512023_100510230_100508440_100506653_100504869_100503088_100501309_100499534_100497761_100495991_100494224_100492460_100490698_100488940_100487184_100485432_100483682_100481935_100480191_100478450_100476712_100474977_100473245_100471515_100469789_100468065_100466344_100464627_100462912_100461200_100459491_100457785_100456082_100454382_100452684_100450990_100449299_100447610_100445925_100444242_100442563_100440886_100439213_100437542_100435874_100434210_100432548_100430889_100429233_100427581_100425931_100424284_100422640_100420999_100419361,
  100417726_100416094_100414466_100412840_100411217_100409597_100407980_100406366_100404755_100403147_100401543_100399941_100398342_100396746_100395153_100393564_100391977_100390393_100388813_100387235_100385661_100384089_100382521_100380955_100379393_100377834_100376277_100374724_100373174_100371627_100370083_100368542_100367004_100365469_100363938_100362409_100360883_100359361_100357841_100356325_100354812_100353302_100351794_100350290_100348789_100347292_100345797_100344305_100342817_100341331_100339849_100338370_100336893_100335420_100333950_100332484_100331020_100329559_100328102_100326647_100325196_100323748_100322303_100320861_100319422_100317987_100316554_100315125_100313699_100312276_100310856_100309439_100308025_100306615_100305207_100303803_100302402_100301004_100299609_100298218_100296829_100295444_100294062_100292683_100291307_100289934_100288565_100287199_100285835_100284475_100283119_100281765_100280415_100279067_100277723_100276382_100275044_100273710_100272378_100271050_100269725_100268403_100267085_100265769_100264457_100263148_100261842_100260539_100259240_100257943_100256650_100255360_100254074_100252790_100251510_100250233_100248959_100247688_100246421_100245156_100243895_100242638_100241383_100240131_100238883_100237638_100236397_100235158_100233923_100232691_100231462_100230236_100229014_100227795_100226579_100225366_100224156_100222950_100221747_100220547_100219351_100218157_100216967_100215780_100214597_100213416_100212239_100211065_100209895_100208727_100207563_100206402_100205245_100204090_100202939_100201791_100200646_100199505_100198367_100197232_100196100_100194972_100193846_100192725_100191606_100190491_100189378_100188269_100187164_100186062_100184962_100183867_100182774_100181685_100180599_100179516_100178436_100177360_100176287_100175217_100174151_100173088_100172028_100170971_100169918_100168868_100167821_100166777_100165737_100164700_100163666_100162636_100161609_100160585_100159564_100158547_100157533_100156522_100155514_100154510_100153509_100152511_100151517_100150526_100149538_100148553_100147572_100146594_100145619_100144648_100143680_100142715_100141753_100140795_100139840_100138888_100137940_100136995_100136053_100135114_100134179_100133247_100132318_100131393_100130471_100129552_100128636_100127724_100126815_100125909_100125007_100124108_100123212_100122319_100121430_100120544_100119661_100118782_100117906_100117033_100116163_100115297_100114434_100113574_100112718_100111865_100111015_100110169_100109325_100108485_100107649_100106815_100105985_100105159_100104335_100103515,
  100102698_100101884_100101074_100100267_100099463_100098663_100097866_100097072_100096281_100095494_100094710_100093929_100093152_100092378_100091607_100090839_100090075_100089314_100088556_100087802_100087051_100086303_100085558_100084817_100084079_100083344_100082613_100081885_100081160_100080439_100079720_100079005_100078294_100077585_100076880_100076178_100075480_100074784_100074092_100073403_100072718_100072036_100071357_100070681_100070009_100069340_100068674_100068012_100067352_100066696_100066044_100065394_100064748_100064105_100063466_100062829_100062196_100061567_100060940_100060317_100059697_100059080_100058467_100057857_100057250_100056646_100056046_100055449_100054855_100054264_100053677_100053093_100052512_100051935_100051360_100050789_100050222_100049657_100049096_100048538_100047983_100047432_100046884_100046339_100045797_100045258_100044723_100044191_100043663_100043137_100042615_100042096_100041580_100041068_100040559_100040053_100039550_100039050_100038554_100038061_100037571_100037085_100036602_100036121_100035645_100035171_100034701_100034234_100033770_100033309_100032852_100032397_100031946_100031499_100031054_100030613_100030175_100029740_100029308_100028880_100028454_100028032_100027614_100027198_100026786_100026377_100025971_100025568_100025168_100024772_100024379_100023989_100023602_100023219_100022839_100022461_100022088_100021717_100021349_100020985_100020624_100020266_100019911_100019560_100019211_100018866_100018524_100018185_100017850_100017517_100017188_100016862_100016539_100016219_100015903_100015590_100015279_100014972_100014668_100014368_100014070_100013776_100013485_100013197_100012912_100012630_100012351_100012076_100011804_100011535_100011269_100011006_100010746_100010490_100010236_100009986_100009739_100009495_100009254_100009017_100008782_100008551_100008323_100008098_100007876_100007657_100007441_100007228_100007019_100006812_100006609_100006409_100006212_100006018_100005827_100005640_100005455_100005274_100005095_100004920_100004748_100004579_100004413_100004250_100004090_100003934_100003780_100003630_100003482_100003338_100003197_100003058_100002923_100002791_100002662_100002537_100002414_100002294_100002177_100002064_100001953_100001846_100001742_100001640_100001542_100001447_100001355_100001266_100001180_100001097_100001017_100000940_100000866_100000795_100000727_100000662_100000601_100000542_100000486_100000434_100000384_100000337_100000294_100000253_100000216_100000181_100000150_100000121_100000096_100000073_100000054_100000037_100000024_100000013_100000006_100000001]

/-- `_lanczos4_vtable`, pmesh/_window_lanczos.h:4164-6212: 8192 entries. -/
def lanczos4Rows : List ℕ := [
  199874547_199874505_199874380_199874172_199873881_199873506_199873049_199872508_199871883_199871176_199870385_199869511_199868554_199867514_199866390_199865183_199863893_199862520_199861063_199859524_199857901_199856195_199854405_199852533_199850577_199848538_199846416_199844211_199841922_199839551_199837096_199834558_199831937_199829232_199826445_199823574_199820620_199817583_199814463_199811260_199807974_199804604_199801151_199797616_199793997_199790295_199786510_199782642_199778691_199774656_199770539_199766338_199762055_199757688_199753239_199748706_199744090_199739392_199734610_199729745_199724797_199719767_199714653_199709456_199704177_199698814_199693368_199687840_199682228_199676534_199670757_199664897_199658954_199652928_199646819_199640627_199634352_199627995_199621555_199615032_199608426_199601737_199594966_199588111_199581174_199574154_199567052_199559866_199552598_199545248_199537814_199530298_199522699_199515018_199507254_199499407_199491477_199483465_199475371_199467193_199458934_199450591_199442166_199433659_199425069_199416396_199407641_199398804_199389884_199380881_199371796_199362629_199353380_199344047_199334633_199325136_199315557_199305895_199296152_199286326_199276417_199266426_199256353_199246198_199235961_199225641_199215239_199204755_199194189_199183541_199172811_199161998_199151104_199140127_199129068_199117927_199106705_199095400_199084013_199072545_199060994_199049361_199037647_199025850_199013972_199002012_198989970_198977847_198965641_198953354_198940985_198928534_198916002_198903387_198890692_198877914_198865055_198852114_198839092_198825988_198812803_198799536_198786187_198772757_198759246_198745653_198731979_198718223_198704386_198690468_198676468_198662387_198648225_198633981_198619656_198605250_198590763_198576195_198561545_198546814_198532003_198517110_198502136_198487081_198471945_198456728_198441431_198426052_198410592_198395052_198379430_198363728_198347945_198332081_198316137_198300111_198284005_198267819_198251551_198235204_198218775_198202266_198185676_198169006_198152255_198135424_198118513_198101521_198084448_198067296_198050063_198032749_198015356_197997882_197980328_197962694_197944979_197927185_197909310_197891355_197873321_197855206_197837011_197818736_197800382_197781947_197763433_197744838_197726164_197707411_197688577_197669664_197650671_197631598_197612446_197593214_197573902_197554511_197535041_197515491_197495861_197476153_197456364_197436497_197416550_197396524_197376419_197356234_197335970_197315627_197295205_197274704_197254124_197233464_197212726_197191909,
  197171013_197150038_197128984_197107851_197086640_197065350_197043981_197022533_197001007_196979402_196957718_196935956_196914116_196892197_196870199_196848124_196825969_196803737_196781426_196759037_196736569_196714024_196691400_196668698_196645918_196623060_196600124_196577110_196554019_196530849_196507601_196484276_196460872_196437391_196413833_196390196_196366482_196342690_196318821_196294874_196270850_196246749_196222569_196198313_196173979_196149568_196125080_196100514_196075872_196051152_196026355_196001481_195976530_195951502_195926397_195901215_195875956_195850621_195825209_195799720_195774154_195748512_195722793_195696997_195671125_195645176_195619151_195593050_195566872_195540618_195514288_195487881_195461398_195434839_195408204_195381493_195354706_195327843_195300904_195273889_195246798_195219632_195192389_195165071_195137677_195110208_195082663_195055042_195027346_194999575_194971728_194943805_194915808_194887735_194859587_194831363_194803065_194774691_194746243_194717719_194689120_194660447_194631698_194602875_194573977_194545004_194515957_194486835_194457638_194428367_194399021_194369601_194340106_194310537_194280894_194251177_194221385_194191519_194161579_194131565_194101477_194071314_194041078_194010768_193980385_193949927_193919396_193888791_193858112_193827360_193796534_193765635_193734662_193703616_193672496_193641303_193610037_193578698_193547286_193515800_193484242_193452610_193420906_193389129_193357278_193325355_193293360_193261291_193229150_193196936_193164650_193132292_193099860_193067357_193034781_193002133_192969413_192936620_192903755_192870819_192837810_192804729_192771576_192738352_192705056_192671688_192638248_192604736_192571153_192537499_192503773_192469975_192436106_192402166_192368155_192334072_192299918_192265693_192231397_192197030_192162592_192128083_192093503_192058853_192024132_191989340_191954477_191919544_191884540_191849466_191814322_191779107_191743822_191708467_191673041_191637545_191601980_191566344_191530638_191494863_191459018_191423102_191387118_191351063_191314939_191278745_191242482_191206150_191169748_191133276_191096736_191060126_191023447_190986699_190949882_190912996_190876041_190839017_190801925_190764764_190727534_190690235_190652868_190615432_190577928_190540356_190502715_190465006_190427229_190389383_190351470_190313488_190275439_190237322_190199137_190160884_190122563_190084175_190045719_190007195_189968604_189929946_189891220_189852427_189813567_189774639_189735645_189696583_189657455_189618259_189578997_189539668_189500272_189460809_189421280_189381684,
  189342022_189302293_189262498_189222637_189182710_189142716_189102656_189062530_189022338_188982081_188941757_188901368_188860912_188820392_188779805_188739153_188698436_188657653_188616805_188575891_188534913_188493869_188452760_188411586_188370347_188329043_188287675_188246242_188204743_188163181_188121554_188079862_188038106_187996285_187954400_187912451_187870438_187828361_187786219_187744014_187701745_187659412_187617015_187574554_187532030_187489442_187446791_187404076_187361298_187318457_187275552_187232584_187189553_187146459_187103303_187060083_187016800_186973455_186930047_186886576_186843043_186799447_186755789_186712069_186668286_186624441_186580534_186536565_186492534_186448441_186404286_186360069_186315790_186271450_186227048_186182585_186138061_186093474_186048827_186004118_185959349_185914518_185869626_185824673_185779659_185734585_185689449_185644253_185598997_185553680_185508302_185462864_185417366_185371807_185326189_185280510_185234771_185188972_185143114_185097195_185051217_185005179_184959081_184912924_184866708_184820432_184774097_184727702_184681249_184634736_184588164_184541534_184494844_184448096_184401289_184354423_184307499_184260516_184213475_184166375_184119217_184072001_184024727_183977395_183930004_183882556_183835050_183787486_183739865_183692186_183644449_183596655_183548803_183500894_183452928_183404905_183356825_183308687_183260493_183212242_183163933_183115569_183067147_183018669_182970135_182921544_182872897_182824193_182775434_182726618_182677746_182628818_182579835_182530795_182481700_182432549_182383343_182334081_182284763_182235390_182185962_182136479_182086941_182037348_181987699_181937996_181888238_181838425_181788558_181738636_181688659_181638628_181588543_181538404_181488210_181437962_181387660_181337304_181286895_181236431_181185914_181135343_181084719_181034041_180983310_180932525_180881687_180830796_180779852_180728855_180677805_180626702_180575546_180524338_180473077_180421763_180370397_180318979_180267508_180215985_180164410_180112783_180061104_180009373_179957591_179905756_179853870_179801932_179749943_179697903_179645811_179593667_179541473_179489228_179436931_179384584_179332186_179279737_179227237_179174687_179122086_179069435_179016733_178963981_178911179_178858327_178805425_178752472_178699470_178646419_178593317_178540166_178486965_178433715_178380416_178327067_178273669_178220221_178166725_178113180_178059586_178005943_177952252_177898511_177844723_177790885_177737000_177683066_177629084_177575054_177520975_177466849_177412675_177358453_177304183_177249866,
  177195501_177141089_177086629_177032122_176977568_176922966_176868318_176813623_176758880_176704091_176649255_176594373_176539444_176484469_176429447_176374379_176319265_176264104_176208898_176153646_176098347_176043003_175987614_175932179_175876698_175821171_175765600_175709983_175654321_175598614_175542862_175487064_175431223_175375336_175319405_175263429_175207408_175151343_175095234_175039081_174982883_174926641_174870356_174814026_174757653_174701236_174644775_174588271_174531723_174475132_174418498_174361820_174305100_174248336_174191529_174134680_174077787_174020852_173963875_173906855_173849792_173792687_173735540_173678351_173621120_173563847_173506531_173449174_173391776_173334335_173276853_173219330_173161765_173104159_173046512_172988824_172931094_172873324_172815513_172757661_172699768_172641835_172583862_172525848_172467793_172409699_172351564_172293389_172235175_172176920_172118626_172060291_172001918_171943505_171885052_171826560_171768029_171709458_171650849_171592200_171533513_171474787_171416022_171357219_171298377_171239496_171180577_171121620_171062625_171003592_170944520_170885411_170826264_170767079_170707856_170648596_170589299_170529964_170470592_170411183_170351736_170292253_170232732_170173175_170113581_170053950_169994283_169934579_169874839_169815063_169755251_169695402_169635517_169575597_169515640_169455648_169395620_169335557_169275458_169215324_169155154_169094949_169034709_168974434_168914124_168853780_168793400_168732986_168672538_168612054_168551537_168490985_168430399_168369779_168309125_168248437_168187715_168126959_168066170_168005347_167944490_167883601_167822678_167761721_167700732_167639710_167578654_167517566_167456445_167395292_167334106_167272887_167211636_167150353_167089038_167027690_166966311_166904900_166843456_166781982_166720475_166658937_166597367_166535767_166474134_166412471_166350777_166289051_166227295_166165508_166103690_166041842_165979963_165918053_165856114_165794144_165732143_165670113_165608053_165545963_165483843_165421694_165359515_165297306_165235068_165172801_165110504_165048178_164985824_164923440_164861027_164798586_164736116_164673617_164611090_164548535_164485951_164423339_164360699_164298031_164235335_164172611_164109860_164047081_163984274_163921440_163858578_163795689_163732773_163669830_163606860_163543863_163480839_163417789_163354712_163291608_163228478_163165322_163102139_163038930_162975696_162912435_162849148_162785836_162722498_162659134_162595745_162532330_162468891_162405426_162341935_162278420_162214880_162151315_162087725_162024111,
  161960472_161896809_161833121_161769409_161705673_161641913_161578129_161514321_161450489_161386633_161322754_161258851_161194925_161130976_161067003_161003008_160938989_160874947_160810882_160746795_160682685_160618552_160554397_160490220_160426020_160361798_160297554_160233288_160169000_160104690_160040359_159976005_159911631_159847235_159782817_159718379_159653919_159589438_159524936_159460413_159395870_159331306_159266721_159202116_159137490_159072844_159008178_158943492_158878786_158814059_158749313_158684548_158619762_158554957_158490133_158425289_158360426_158295544_158230643_158165723_158100784_158035826_157970850_157905855_157840841_157775809_157710759_157645690_157580603_157515499_157450376_157385236_157320078_157254902_157189708_157124498_157059269_156994024_156928761_156863482_156798185_156732871_156667541_156602194_156536830_156471450_156406054_156340641_156275212_156209767_156144305_156078828_156013335_155947826_155882302_155816762_155751207_155685636_155620050_155554449_155488832_155423201_155357555_155291894_155226218_155160528_155094823_155029104_154963370_154897622_154831861_154766085_154700295_154634491_154568674_154502843_154436998_154371140_154305268_154239383_154173485_154107574_154041650_153975713_153909764_153843801_153777826_153711838_153645838_153579826_153513802_153447765_153381716_153315655_153249583_153183499_153117403_153051295_152985176_152919046_152852904_152786751_152720587_152654412_152588227_152522030_152455823_152389605_152323376_152257137_152190888_152124628_152058359_151992079_151925789_151859490_151793180_151726861_151660533_151594195_151527847_151461491_151395125_151328750_151262366_151195973_151129571_151063161_150996741_150930314_150863878_150797433_150730981_150664520_150598051_150531574_150465089_150398597_150332096_150265589_150199073_150132551_150066021_149999483_149932939_149866388_149799829_149733264_149666692_149600114_149533529_149466937_149400339_149333735_149267124_149200508_149133886_149067257_149000623_148933983_148867338_148800687_148734030_148667369_148600702_148534030_148467352_148400670_148333983_148267292_148200595_148133894_148067189_148000479_147933765_147867046_147800324_147733597_147666867_147600133_147533395_147466653_147399908_147333159_147266407_147199652_147132894_147066132_146999368_146932600_146865830_146799057_146732282_146665504_146598723_146531940_146465155_146398368_146331579_146264788_146197995_146131200_146064404_145997606_145930806_145864005_145797203_145730399_145663595_145596789_145529983_145463175_145396367_145329558_145262749_145195939,
  145129129_145062318_144995508_144928697_144861886_144795075_144728265_144661455_144594645_144527835_144461027_144394218_144327411_144260604_144193798_144126994_144060190_143993388_143926586_143859787_143792988_143726192_143659397_143592603_143525812_143459022_143392235_143325449_143258666_143191885_143125107_143058331_142991557_142924787_142858019_142791254_142724491_142657732_142590976_142524223_142457474_142390728_142323985_142257246_142190511_142123779_142057052_141990328_141923608_141856893_141790181_141723474_141656772_141590074_141523380_141456691_141390007_141323328_141256654_141189985_141123321_141056662_140990008_140923360_140856718_140790081_140723449_140656824_140590204_140523590_140456983_140390381_140323786_140257197_140190614_140124038_140057469_139990906_139924350_139857800_139791258_139724723_139658195_139591674_139525160_139458654_139392155_139325664_139259181_139192705_139126237_139059777_138993325_138926882_138860446_138794019_138727600_138661189_138594788_138528394_138462010_138395634_138329267_138262910_138196561_138130222_138063891_137997571_137931259_137864958_137798665_137732383_137666110_137599847_137533595_137467352_137401119_137334897_137268685_137202484_137136293_137070112_137003943_136937784_136871636_136805499_136739373_136673258_136607154_136541062_136474981_136408911_136342853_136276807_136210772_136144750_136078739_136012740_135946754_135880779_135814817_135748867_135682930_135617005_135551093_135485193_135419307_135353433_135287572_135221724_135155889_135090068_135024260_134958465_134892684_134826916_134761162_134695422_134629696_134563983_134498285_134432601_134366930_134301275_134235633_134170006_134104393_134038795_133973212_133907644_133842090_133776552_133711028_133645519_133580026_133514548_133449086_133383639_133318207_133252791_133187391_133122007_133056638_132991286_132925949_132860629_132795325_132730037_132664766_132599511_132534273_132469052_132403847_132338659_132273488_132208334_132143197_132078077_132012974_131947889_131882821_131817771_131752738_131687723_131622726_131557746_131492785_131427841_131362916_131298009_131233120_131168249_131103397_131038563_130973748_130908951_130844174_130779415_130714675_130649954_130585252_130520570_130455906_130391262_130326638_130262032_130197447_130132881_130068335_130003809_129939302_129874816_129810349_129745903_129681477_129617072_129552687_129488322_129423978_129359654_129295352_129231070_129166809_129102569_129038350_128974152_128909976_128845820_128781686_128717574_128653483_128589414_128525366_128461341_128397337_128333355,
  128269395_128205457_128141541_128077648_128013777_127949929_127886103_127822299_127758519_127694761_127631025_127567313_127503624_127439958_127376315_127312695_127249099_127185525_127121976_127058450_126994947_126931469_126868014_126804583_126741176_126677793_126614434_126551099_126487788_126424502_126361240_126298003_126234790_126171602_126108439_126045301_125982187_125919098_125856035_125792996_125729983_125666995_125604032_125541095_125478184_125415297_125352437_125289602_125226793_125164011_125101254_125038523_124975818_124913139_124850487_124787861_124725261_124662688_124600142_124537622_124475129_124412663_124350224_124287811_124225426_124163068_124100737_124038433_123976157_123913908_123851686_123789493_123727326_123665188_123603077_123540995_123478940_123416913_123354914_123292944_123231001_123169087_123107202_123045345_122983516_122921716_122859945_122798203_122736489_122674805_122613149_122551523_122489925_122428357_122366818_122305308_122243828_122182378_122120957_122059565_121998204_121936872_121875570_121814298_121753056_121691844_121630663_121569511_121508390_121447299_121386239_121325209_121264210_121203242_121142304_121081397_121020521_120959676_120898862_120838080_120777328_120716607_120655918_120595261_120534634_120474040_120413477_120352945_120292446_120231978_120171542_120111138_120050766_119990426_119930118_119869843_119809600_119749389_119689211_119629065_119568952_119508872_119448824_119388809_119328827_119268878_119208962_119149079_119089229_119029413_118969629_118909879_118850163_118790480_118730830_118671215_118611633_118552084_118492570_118433089_118373643_118314230_118254852_118195507_118136197_118076922_118017681_117958474_117899301_117840164_117781061_117721992_117662959_117603960_117544996_117486068_117427174_117368315_117309492_117250704_117191951_117133234_117074552_117015906_116957295_116898720_116840180_116781677_116723209_116664777_116606381_116548021_116489698_116431410_116373159_116314944_116256766_116198623_116140518_116082449_116024416_115966421_115908462_115850540_115792655_115734807_115676995_115619221_115561484_115503785_115446122_115388497_115330909_115273359_115215847_115158372_115100934_115043535_114986173_114928849_114871563_114814314_114757104_114699932_114642799_114585703_114528646_114471627_114414646_114357704_114300801_114243936_114187110_114130322_114073574_114016864_113960193_113903561_113846968_113790414_113733899_113677424_113620988_113564591_113508233_113451915_113395637_113339398_113283199_113227039_113170919_113114840_113058799_113002799_112946839_112890919,
  112835039_112779199_112723400_112667641_112611922_112556243_112500605_112445008_112389451_112333935_112278459_112223025_112167631_112112278_112056966_112001695_111946465_111891276_111836128_111781022_111725957_111670933_111615950_111561009_111506110_111451252_111396436_111341661_111286929_111232238_111177589_111122981_111068416_111013893_110959412_110904973_110850576_110796222_110741910_110687640_110633413_110579228_110525085_110470986_110416929_110362914_110308943_110255014_110201128_110147285_110093485_110039728_109986014_109932343_109878715_109825131_109771590_109718092_109664638_109611227_109557860_109504536_109451256_109398020_109344827_109291678_109238573_109185512_109132494_109079521_109026592_108973707_108920866_108868069_108815317_108762609_108709945_108657326_108604751_108552220_108499735_108447293_108394897_108342545_108290238_108237976_108185759_108133586_108081459_108029376_107977339_107925347_107873400_107821498_107769642_107717831_107666065_107614345_107562670_107511041_107459457_107407919_107356427_107304980_107253579_107202224_107150915_107099652_107048435_106997264_106946139_106895060_106844027_106793040_106742100_106691206_106640358_106589557_106538802_106488094_106437432_106386817_106336249_106285727_106235252_106184824_106134442_106084108_106033820_105983580_105933386_105883240_105833141_105783088_105733083_105683126_105633215_105583352_105533537_105483768_105434048_105384374_105334749_105285171_105235641_105186158_105136723_105087336_105037997_104988706_104939462_104890267_104841119_104792020_104742969_104693966_104645011_104596104_104547246_104498436_104449675_104400961_104352297_104303680_104255113_104206594_104158123_104109702_104061329_104013004_103964729_103916502_103868324_103820196_103772116_103724085_103676103_103628171_103580287_103532453_103484667_103436932_103389245_103341608_103294020_103246482_103198993_103151553_103104163_103056823_103009532_102962291_102915100_102867959_102820867_102773825_102726833_102679891_102632998_102586156_102539364_102492622_102445930_102399288_102352696_102306155_102259664_102213223_102166832_102120492_102074202_102027963_101981774_101935635_101889548_101843510_101797524_101751588_101705703_101659868_101614085_101568352_101522670_101477039_101431459_101385930_101340451_101295024_101249648_101204323_101159050_101113827_101068656_101023536_100978467_100933449_100888483_100843568_100798705_100753893_100709133_100664424_100619767_100575161_100530607_100486105_100441654_100397256_100352909_100308613_100264370_100220178_100176039_100131951_100087915_100043932,
  100000000_099956120_099912293_099868518_099824795_099781124_099737505_099693939_099650424_099606963_099563553_099520196_099476892_099433640_099390440_099347293_099304198_099261157_099218167_099175231_099132347_099089515_099046737_099004011_098961338_098918718_098876151_098833637_098791175_098748767_098706411_098664109_098621859_098579663_098537520_098495430_098453393_098411409_098369479_098327602_098285778_098244007_098202290_098160626_098119015_098077458_098035954_097994504_097953107_097911764_097870474_097829238_097788056_097746927_097705852_097664831_097623863_097582949_097542089_097501282_097460530_097419831_097379186_097338596_097298059_097257576_097217147_097176772_097136451_097096184_097055971_097015812_096975708_096935657_096895661_096855719_096815831_096775998_096736219_096696494_096656823_096617207_096577645_096538138_096498685_096459286_096419942_096380653_096341418_096302237_096263111_096224040_096185023_096146061_096107154_096068301_096029503_095990760_095952072_095913438_095874859_095836335_095797866_095759452_095721092_095682788_095644538_095606343_095568203_095530119_095492089_095454114_095416195_095378330_095340521_095302766_095265067_095227423_095189834_095152301_095114822_095077399_095040031_095002718_094965461_094928259_094891112_094854021_094816985_094780004_094743079_094706209_094669395_094632636_094595933_094559285_094522693_094486156_094449674_094413249_094376879_094340564_094304305_094268102_094231955_094195863_094159827_094123846_094087921_094052052_094016239_093980482_093944780_093909134_093873544_093838010_093802532_093767110_093731743_093696432_093661178_093625979_093590836_093555749_093520718_093485744_093450825_093415962_093381155_093346404_093311710_093277071_093242489_093207962_093173492_093139078_093104720_093070418_093036173_093001983_092967850_092933773_092899753_092865788_092831880_092798028_092764232_092730493_092696810_092663183_092629613_092596099_092562641_092529240_092495895_092462607_092429375_092396199_092363080_092330017_092297010_092264060_092231167_092198330_092165550_092132826_092100158_092067547_092034993_092002495_091970054_091937669_091905341_091873070_091840855_091808696_091776595_091744549_091712561_091680629_091648754_091616936_091585174_091553469_091521820_091490228_091458693_091427215_091395793_091364428_091333120_091301869_091270674_091239536_091208455_091177430_091146463_091115552_091084698_091053900_091023160_090992476_090961850_090931280_090900766_090870310_090839911_090809568_090779282_090749053_090718881_090688766_090658708_090628706_090598762_090568874,
  90539043_090509270_090479553_090449893_090420290_090390743_090361254_090331822_090302447_090273128_090243867_090214662_090185514_090156424_090127390_090098413_090069494_090040631_090011825_089983076_089954384_089925750_089897172_089868651_089840187_089811780_089783430_089755137_089726901_089698722_089670600_089642535_089614527_089586576_089558682_089530846_089503066_089475343_089447677_089420068_089392516_089365021_089337583_089310203_089282879_089255612_089228402_089201249_089174154_089147115_089120133_089093208_089066341_089039530_089012776_088986080_088959440_088932857_088906332_088879863_088853451_088827097_088800799_088774559_088748375_088722248_088696179_088670166_088644210_088618312_088592470_088566685_088540958_088515287_088489673_088464116_088438617_088413174_088387788_088362459_088337187_088311972_088286814_088261713_088236669_088211681_088186751_088161878_088137061_088112302_088087599_088062953_088038364_088013833_087989358_087964939_087940578_087916274_087892026_087867836_087843702_087819625_087795605_087771642_087747736_087723886_087700094_087676358_087652679_087629056_087605491_087581982_087558531_087535136_087511797_087488516_087465291_087442123_087419012_087395957_087372960_087350019_087327134_087304307_087281536_087258822_087236164_087213563_087191019_087168532_087146101_087123727_087101409_087079148_087056944_087034796_087012705_086990671_086968693_086946771_086924906_086903098_086881346_086859651_086838013_086816430_086794905_086773436_086752023_086730667_086709367_086688124_086666937_086645806_086624732_086603715_086582754_086561849_086541000_086520208_086499472_086478793_086458170_086437603_086417093_086396638_086376240_086355899_086335613_086315384_086295211_086275095_086255034_086235030_086215082_086195190_086175354_086155574_086135851_086116183_086096572_086077016_086057517_086038074_086018687_085999356_085980081_085960862_085941699_085922591_085903540_085884545_085865606_085846722_085827895_085809123_085790407_085771748_085753143_085734595_085716103_085697666_085679285_085660960_085642691_085624477_085606319_085588217_085570170_085552179_085534244_085516365_085498541_085480772_085463059_085445402_085427800_085410254_085392763_085375328_085357948_085340624_085323355_085306142_085288984_085271881_085254834_085237842_085220905_085204024_085187198_085170428_085153712_085137052_085120447_085103897_085087403_085070963_085054579_085038250_085021976_085005757_084989593_084973484_084957430_084941432_084925488_084909599_084893765_084877986_084862262_084846593_084830979_084815419_084799915_084784465,
  84769070_084753730_084738444_084723213_084708037_084692916_084677849_084662837_084647880_084632977_084618129_084603335_084588596_084573911_084559281_084544705_084530184_084515717_084501304_084486946_084472642_084458393_084444198_084430057_084415970_084401938_084387960_084374036_084360166_084346351_084332589_084318882_084305229_084291629_084278084_084264593_084251156_084237772_084224443_084211167_084197946_084184778_084171664_084158604_084145598_084132645_084119747_084106902_084094110_084081372_084068688_084056058_084043481_084030958_084018488_084006072_083993709_083981399_083969143_083956941_083944792_083932696_083920653_083908664_083896728_083884846_083873016_083861240_083849517_083837847_083826230_083814666_083803156_083791698_083780294_083768942_083757643_083746397_083735204_083724064_083712977_083701943_083690961_083680032_083669156_083658333_083647562_083636844_083626179_083615566_083605005_083594497_083584042_083573639_083563289_083552991_083542745_083532552_083522411_083512322_083502286_083492302_083482370_083472490_083462663_083452887_083443164_083433492_083423873_083414306_083404790_083395327_083385915_083376556_083367248_083357992_083348788_083339635_083330535_083321486_083312488_083303542_083294648_083285806_083277015_083268275_083259587_083250950_083242365_083233831_083225349_083216918_083208538_083200209_083191932_083183705_083175530_083167406_083159333_083151312_083143341_083135421_083127552_083119734_083111967_083104251_083096585_083088971_083081407_083073894_083066432_083059020_083051659_083044348_083037088_083029879_083022720_083015611_083008553_083001545_082994588_082987681_082980824_082974018_082967261_082960555_082953899_082947293_082940738_082934232_082927776_082921370_082915015_082908709_082902453_082896246_082890090_082883983_082877926_082871919_082865962_082860054_082854195_082848386_082842627_082836917_082831257_082825646_082820084_082814572_082809109_082803695_082798330_082793015_082787749_082782532_082777364_082772245_082767175_082762153_082757181_082752258_082747384_082742558_082737781_082733053_082728374_082723743_082719161_082714628_082710143_082705706_082701318_082696979_082692688_082688445_082684250_082680104_082676006_082671957_082667955_082664002_082660096_082656239_082652430_082648669_082644955_082641290_082637672_082634102_082630580_082627106_082623680_082620301_082616969_082613686_082610449_082607261_082604120_082601026_082597979_082594980_082592029_082589124_082586267_082583457_082580694_082577978_082575309_082572688_082570113_082567585_082565104_082562670_082560283_082557942,
  82555648_082553401_082551201_082549047_082546940_082544879_082542865_082540897_082538976_082537101_082535272_082533490_082531754_082530064_082528420_082526822_082525271_082523765_082522306_082520892_082519524_082518202_082516926_082515696_082514511_082513373_082512279_082511232_082510230_082509273_082508362_082507497_082506676_082505901_082505172_082504488_082503849_082503255_082502706_082502202_082501744_082501330_082500961_082500638_082500359_082500125_082499935_082499791_082499691_082499636_082499625_082499659_082499738_082499861_082500028_082500240_082500496_082500796_082501141_082501530_082501963_082502440_082502962_082503527_082504136_082504790_082505487_082506228_082507012_082507841_082508713_082509629_082510589_082511592_082512639_082513729_082514862_082516039_082517260_082518523_082519830_082521180_082522574_082524010_082525490_082527012_082528578_082530186_082531838_082533532_082535269_082537049_082538871_082540736_082542644_082544594_082546587_082548623_082550700_082552820_082554983_082557188_082559435_082561724_082564055_082566429_082568844_082571302_082573801_082576343_082578926_082581551_082584218_082586926_082589676_082592468_082595302_082598177_082601093_082604051_082607050_082610091_082613173_082616296_082619460_082622666_082625913_082629200_082632529_082635898_082639309_082642760_082646253_082649786_082653359_082656974_082660628_082664324_082668060_082671837_082675654_082679511_082683408_082687346_082691325_082695343_082699401_082703500_082707638_082711817_082716035_082720294_082724592_082728930_082733308_082737725_082742182_082746679_082751215_082755790_082760406_082765060_082769754_082774487_082779259_082784071_082788921_082793811_082798740_082803708_082808714_082813760_082818844_082823968_082829129_082834330_082839569_082844847_082850164_082855518_082860912_082866343_082871814_082877322_082882868_082888453_082894076_082899737_082905436_082911173_082916948_082922760_082928611_082934499_082940425_082946389_082952390_082958429_082964506_082970620_082976771_082982960_082989185_082995449_083001749_083008087_083014461_083020873_083027322_083033808_083040330_083046890_083053486_083060119_083066789_083073495_083080238_083087017_083093833_083100686_083107574_083114499_083121461_083128458_083135492_083142562_083149668_083156810_083163988_083171201_083178451_083185737_083193058_083200415_083207807_083215235_083222699_083230198_083237733_083245303_083252908_083260549_083268224_083275935_083283681_083291463_083299279_083307130_083315016_083322937_083330892_083338883_083346908_083354968_083363062_083371191,
  83379354_083387552_083395784_083404051_083412351_083420686_083429055_083437458_083445896_083454367_083462872_083471411_083479984_083488591_083497231_083505905_083514613_083523354_083532129_083540937_083549779_083558654_083567562_083576504_083585479_083594486_083603527_083612601_083621708_083630848_083640021_083649226_083658465_083667736_083677039_083686376_083695744_083705146_083714579_083724045_083733544_083743074_083752637_083762232_083771859_083781518_083791209_083800933_083810688_083820474_083830293_083840143_083850025_083859939_083869884_083879860_083889868_083899908_083909979_083920081_083930214_083940378_083950574_083960800_083971058_083981347_083991666_084002016_084012397_084022809_084033252_084043725_084054228_084064762_084075327_084085922_084096547_084107203_084117889_084128605_084139351_084150127_084160933_084171770_084182636_084193531_084204457_084215413_084226398_084237412_084248457_084259530_084270634_084281766_084292928_084304119_084315340_084326589_084337868_084349176_084360513_084371879_084383273_084394697_084406149_084417630_084429140_084440678_084452245_084463840_084475464_084487116_084498797_084510505_084522242_084534007_084545801_084557622_084569471_084581349_084593254_084605187_084617147_084629136_084641152_084653196_084665267_084677366_084689492_084701645_084713826_084726034_084738270_084750532_084762822_084775138_084787482_084799853_084812250_084824674_084837125_084849603_084862107_084874638_084887195_084899779_084912390_084925026_084937689_084950379_084963094_084975835_084988603_085001397_085014216_085027062_085039933_085052830_085065753_085078702_085091676_085104676_085117701_085130752_085143828_085156929_085170056_085183208_085196385_085209587_085222815_085236067_085249344_085262646_085275973_085289325_085302701_085316103_085329528_085342978_085356453_085369952_085383476_085397024_085410596_085424192_085437813_085451457_085465126_085478818_085492535_085506275_085520039_085533827_085547638_085561474_085575332_085589215_085603120_085617049_085631002_085644978_085658977_085672999_085687044_085701113_085715204_085729318_085743455_085757615_085771798_085786004_085800232_085814483_085828756_085843052_085857370_085871711_085886074_085900459_085914866_085929296_085943748_085958221_085972717_085987235_086001774_086016335_086030918_086045523_086060149_086074797_086089466_086104157_086118870_086133603_086148358_086163134_086177932_086192750_086207590_086222450_086237332_086252234_086267157_086282101_086297066_086312051_086327057_086342083_086357130_086372198_086387286_086402394_086417522_086432671,
  86447839_086463028_086478237_086493466_086508714_086523983_086539271_086554580_086569907_086585255_086600622_086616008_086631414_086646840_086662285_086677749_086693232_086708734_086724256_086739797_086755356_086770935_086786532_086802149_086817784_086833438_086849110_086864801_086880511_086896239_086911985_086927750_086943534_086959335_086975155_086990993_087006849_087022723_087038615_087054524_087070452_087086398_087102361_087118342_087134341_087150357_087166391_087182442_087198511_087214597_087230700_087246820_087262958_087279113_087295285_087311474_087327679_087343902_087360142_087376398_087392671_087408961_087425267_087441590_087457930_087474285_087490658_087507046_087523451_087539872_087556309_087572763_087589232_087605717_087622219_087638736_087655269_087671818_087688382_087704962_087721558_087738169_087754796_087771438_087788095_087804768_087821456_087838159_087854878_087871611_087888360_087905123_087921902_087938695_087955503_087972326_087989163_088006015_088022882_088039763_088056659_088073569_088090493_088107432_088124385_088141352_088158334_088175329_088192338_088209362_088226399_088243450_088260515_088277593_088294685_088311791_088328911_088346044_088363190_088380350_088397523_088414709_088431909_088449122_088466348_088483587_088500839_088518104_088535381_088552672_088569975_088587292_088604620_088621962_088639316_088656682_088674061_088691453_088708856_088726272_088743700_088761141_088778593_088796058_088813534_088831023_088848523_088866035_088883559_088901095_088918642_088936201_088953772_088971354_088988947_089006552_089024168_089041795_089059434_089077084_089094745_089112417_089130100_089147794_089165499_089183214_089200941_089218678_089236426_089254184_089271954_089289733_089307523_089325323_089343134_089360955_089378787_089396628_089414480_089432341_089450213_089468094_089485986_089503887_089521798_089539719_089557650_089575590_089593540_089611499_089629468_089647446_089665433_089683430_089701436_089719452_089737476_089755509_089773552_089791603_089809664_089827733_089845811_089863898_089881994_089900098_089918211_089936332_089954462_089972600_089990747_090008902_090027065_090045236_090063416_090081604_090099799_090118003_090136215_090154434_090172662_090190897_090209140_090227391_090245649_090263915_090282188_090300469_090318757_090337053_090355356_090373666_090391983_090410307_090428639_090446978_090465323_090483676_090502035_090520401_090538774_090557154_090575540_090593933_090612333_090630739_090649151_090667570_090685995_090704427_090722864_090741308_090759758_090778215_090796677_090815145,
  90833619_090852099_090870585_090889076_090907573_090926076_090944585_090963099_090981618_091000143_091018673_091037209_091055750_091074296_091092848_091111404_091129966_091148533_091167104_091185681_091204262_091222849_091241440_091260035_091278636_091297241_091315850_091334464_091353083_091371706_091390333_091408965_091427601_091446241_091464885_091483533_091502186_091520842_091539502_091558166_091576834_091595506_091614182_091632861_091651544_091670230_091688920_091707613_091726310_091745011_091763714_091782421_091801131_091819844_091838561_091857280_091876002_091894728_091913456_091932187_091950921_091969658_091988398_092007140_092025885_092044632_092063382_092082134_092100889_092119646_092138405_092157167_092175931_092194697_092213465_092232235_092251007_092269782_092288558_092307336_092326115_092344897_092363680_092382465_092401251_092420040_092438829_092457620_092476413_092495206_092514001_092532798_092551595_092570394_092589194_092607995_092626797_092645600_092664404_092683209_092702014_092720820_092739627_092758435_092777243_092796052_092814862_092833672_092852482_092871293_092890104_092908915_092927727_092946538_092965350_092984162_093002974_093021786_093040598_093059410_093078222_093097033_093115845_093134655_093153466_093172276_093191086_093209895_093228704_093247512_093266320_093285126_093303933_093322738_093341542_093360346_093379149_093397950_093416751_093435551_093454349_093473147_093491943_093510738_093529531_093548324_093567114_093585904_093604692_093623478_093642263_093661046_093679828_093698607_093717385_093736162_093754936_093773708_093792479_093811247_093830014_093848778_093867540_093886300_093905058_093923813_093942567_093961317_093980066_093998811_094017555_094036296_094055034_094073769_094092502_094111232_094129960_094148684_094167406_094186124_094204840_094223553_094242262_094260969_094279672_094298372_094317069_094335763_094354453_094373140_094391823_094410503_094429180_094447853_094466522_094485188_094503850_094522508_094541162_094559813_094578460_094597103_094615742_094634376_094653007_094671634_094690256_094708875_094727489_094746099_094764704_094783306_094801902_094820495_094839083_094857666_094876245_094894819_094913388_094931953_094950513_094969068_094987618_095006164_095024704_095043240_095061770_095080296_095098816_095117331_095135841_095154346_095172845_095191339_095209828_095228312_095246790_095265262_095283729_095302190_095320646_095339096_095357540_095375979_095394412_095412839_095431260_095449675_095468084_095486487_095504885_095523276_095541661_095560040_095578412_095596778,
  95615138_095633492_095651839_095670180_095688515_095706843_095725164_095743479_095761787_095780089_095798383_095816671_095834953_095853227_095871495_095889755_095908009_095926255_095944495_095962728_095980953_095999171_096017382_096035586_096053783_096071972_096090154_096108328_096126495_096144655_096162807_096180951_096199088_096217217_096235338_096253452_096271558_096289656_096307747_096325829_096343904_096361970_096380029_096398079_096416122_096434156_096452182_096470200_096488210_096506211_096524204_096542189_096560165_096578133_096596093_096614044_096631986_096649920_096667845_096685761_096703669_096721568_096739458_096757340_096775212_096793076_096810931_096828776_096846613_096864441_096882259_096900069_096917869_096935660_096953442_096971215_096988978_097006732_097024476_097042211_097059937_097077653_097095360_097113057_097130744_097148422_097166090_097183748_097201397_097219035_097236664_097254283_097271892_097289491_097307081_097324660_097342229_097359788_097377337_097394875_097412404_097429922_097447430_097464928_097482415_097499892_097517359_097534815_097552260_097569695_097587120_097604534_097621937_097639329_097656711_097674082_097691443_097708792_097726131_097743459_097760776_097778082_097795377_097812660_097829933_097847195_097864446_097881685_097898914_097916131_097933336_097950531_097967714_097984886_098002046_098019195_098036333_098053459_098070573_098087676_098104767_098121847_098138915_098155971_098173015_098190048_098207069_098224078_098241075_098258060_098275034_098291995_098308944_098325882_098342807_098359720_098376621_098393510_098410386_098427251_098444103_098460942_098477770_098494585_098511388_098528178_098544955_098561721_098578473_098595213_098611941_098628656_098645358_098662048_098678724_098695389_098712040_098728678_098745304_098761917_098778516_098795103_098811677_098828238_098844786_098861320_098877842_098894351_098910846_098927328_098943797_098960253_098976695_098993124_099009540_099025942_099042331_099058706_099075068_099091417_099107752_099124073_099140381_099156675_099172955_099189222_099205475_099221715_099237940_099254152_099270350_099286534_099302704_099318860_099335003_099351131_099367245_099383346_099399432_099415504_099431562_099447606_099463635_099479651_099495652_099511639_099527611_099543570_099559514_099575443_099591358_099607259_099623145_099639017_099654874_099670717_099686545_099702358_099718157_099733941_099749710_099765465_099781205_099796930_099812641_099828336_099844017_099859683_099875333_099890969_099906590_099922196_099937787_099953363_099968924_099984469,
  100000000_100015515_100031016_100046501_100061970_100077425_100092864_100108288_100123696_100139090_100154467_100169830_100185177_100200508_100215824_100231124_100246409_100261678_100276932_100292170_100307392_100322599_100337790_100352965_100368125_100383269_100398397_100413509_100428605_100443685_100458750_100473798_100488831_100503847_100518848_100533832_100548801_100563753_100578689_100593609_100608513_100623401_100638273_100653128_100667967_100682790_100697597_100712387_100727161_100741918_100756660_100771384_100786093_100800784_100815460_100830119_100844761_100859387_100873996_100888588_100903164_100917724_100932266_100946792_100961301_100975794_100990269_101004728_101019170_101033596_101048004_101062396_101076770_101091128_101105469_101119793_101134100_101148389_101162662_101176918_101191157_101205378_101219583_101233770_101247940_101262093_101276229_101290348_101304449_101318533_101332600_101346649_101360681_101374696_101388694_101402674_101416636_101430581_101444509_101458419_101472312_101486188_101500045_101513885_101527708_101541513_101555300_101569070_101582822_101596557_101610273_101623973_101637654_101651317_101664963_101678591_101692201_101705794_101719368_101732925_101746463_101759984_101773487_101786972_101800439_101813888_101827319_101840732_101854127_101867504_101880862_101894203_101907526_101920830_101934117_101947385_101960635_101973866_101987080_102000275_102013452_102026611_102039751_102052873_102065977_102079063_102092130_102105179_102118209_102131221_102144214_102157189_102170146_102183084_102196003_102208904_102221787_102234651_102247496_102260323_102273131_102285921_102298692_102311444_102324178_102336893_102349589_102362266_102374925_102387565_102400186_102412789_102425373_102437938_102450484_102463011_102475519_102488009_102500479_102512931_102525364_102537777_102550172_102562548_102574905_102587243_102599562_102611862_102624143_102636404_102648647_102660871_102673075_102685261_102697427_102709574_102721702_102733811_102745901_102757971_102770022_102782054_102794067_102806060_102818035_102829990_102841925_102853842_102865739_102877616_102889474_102901313_102913133_102924933_102936714_102948475_102960217_102971940_102983643_102995326_103006990_103018635_103030260_103041866_103053452_103065018_103076565_103088092_103099600_103111088_103122557_103134006_103145435_103156845_103168235_103179605_103190956_103202287_103213598_103224890_103236162_103247414_103258646_103269859_103281051_103292225_103303378_103314511_103325625_103336719_103347793_103358847_103369881_103380896_103391890_103402865,
  103413820_103424754_103435669_103446564_103457439_103468294_103479130_103489945_103500740_103511515_103522270_103533006_103543721_103554416_103565091_103575746_103586381_103596996_103607591_103618165_103628720_103639255_103649769_103660263_103670737_103681191_103691625_103702039_103712433_103722806_103733159_103743492_103753805_103764098_103774370_103784622_103794854_103805066_103815257_103825428_103835579_103845709_103855820_103865910_103875980_103886029_103896058_103906067_103916055_103926023_103935971_103945898_103955805_103965692_103975558_103985404_103995230_104005035_104014820_104024584_104034328_104044051_104053754_104063437_104073099_104082741_104092362_104101963_104111543_104121103_104130642_104140161_104149660_104159138_104168595_104178032_104187448_104196844_104206219_104215574_104224908_104234222_104243515_104252788_104262040_104271271_104280482_104289672_104298842_104307991_104317120_104326228_104335315_104344382_104353428_104362453_104371458_104380442_104389406_104398349_104407271_104416173_104425054_104433915_104442754_104451573_104460372_104469150_104477907_104486643_104495359_104504054_104512728_104521382_104530015_104538627_104547219_104555790_104564340_104572869_104581378_104589866_104598333_104606780_104615206_104623611_104631995_104640359_104648702_104657024_104665326_104673606_104681866_104690106_104698324_104706522_104714699_104722855_104730990_104739105_104747199_104755272_104763324_104771356_104779367_104787357_104795326_104803275_104811202_104819109_104826995_104834861_104842705_104850529_104858332_104866114_104873876_104881616_104889336_104897035_104904714_104912371_104920008_104927624_104935219_104942793_104950346_104957879_104965391_104972882_104980352_104987802_104995231_105002638_105010026_105017392_105024737_105032062_105039366_105046649_105053911_105061153_105068374_105075573_105082753_105089911_105097048_105104165_105111261_105118336_105125391_105132424_105139437_105146429_105153400_105160350_105167280_105174189_105181077_105187944_105194791_105201616_105208421_105215205_105221969_105228711_105235433_105242134_105248814_105255474_105262113_105268731_105275328_105281904_105288460_105294995_105301509_105308003_105314476_105320927_105327359_105333769_105340159_105346528_105352876_105359204_105365511_105371797_105378062_105384307_105390531_105396734_105402917_105409078_105415220_105421340_105427440_105433519_105439577_105445615_105451632_105457628_105463604_105469559_105475493_105481407_105487300_105493172_105499024_105504855_105510665_105516455_105522224_105527973_105533701_105539408,
  105545095_105550761_105556406_105562031_105567635_105573219_105578782_105584325_105589846_105595348_105600829_105606289_105611728_105617147_105622546_105627924_105633281_105638618_105643935_105649231_105654506_105659761_105664995_105670209_105675402_105680575_105685728_105690860_105695971_105701062_105706132_105711183_105716212_105721221_105726210_105731178_105736126_105741054_105745961_105750847_105755714_105760560_105765385_105770190_105774975_105779739_105784483_105789207_105793910_105798594_105803256_105807899_105812521_105817122_105821704_105826265_105830806_105835326_105839827_105844307_105848767_105853206_105857625_105862025_105866403_105870762_105875100_105879419_105883717_105887995_105892252_105896490_105900707_105904904_105909081_105913238_105917375_105921492_105925588_105929665_105933721_105937757_105941774_105945770_105949746_105953702_105957638_105961554_105965449_105969325_105973181_105977017_105980833_105984629_105988405_105992161_105995897_105999613_106003309_106006985_106010642_106014278_106017895_106021491_106025068_106028625_106032162_106035679_106039176_106042654_106046111_106049549_106052967_106056366_106059744_106063103_106066442_106069761_106073061_106076340_106079600_106082841_106086061_106089262_106092444_106095605_106098747_106101870_106104972_106108055_106111119_106114163_106117187_106120192_106123177_106126142_106129088_106132015_106134922_106137809_106140677_106143526_106146354_106149164_106151954_106154725_106157476_106160208_106162920_106165613_106168286_106170941_106173575_106176191_106178787_106181364_106183921_106186460_106188978_106191478_106193958_106196419_106198861_106201284_106203687_106206072_106208437_106210782_106213109_106215417_106217705_106219974_106222224_106224455_106226667_106228860_106231034_106233188_106235324_106237441_106239538_106241617_106243677_106245717_106247739_106249742_106251725_106253690_106255636_106257563_106259472_106261361_106263231_106265083_106266916_106268730_106270525_106272301_106274059_106275798_106277518_106279219_106280902_106282566_106284211_106285837_106287445_106289034_106290605_106292157_106293690_106295205_106296701_106298179_106299638_106301079_106302501_106303904_106305289_106306656_106308004_106309333_106310645_106311937_106313212_106314468_106315705_106316925_106318126_106319308_106320472_106321618_106322746_106323855_106324946_106326019_106327074_106328110_106329129_106330129_106331111_106332074_106333020_106333948_106334857_106335748_106336621_106337477_106338314_106339133_106339934_106340717_106341482_106342229_106342959_106343670,
  106344363_106345039_106345696_106346336_106346958_106347562_106348148_106348717_106349267_106349800_106350315_106350813_106351292_106351754_106352199_106352625_106353034_106353425_106353799_106354155_106354494_106354814_106355118_106355404_106355672_106355923_106356156_106356372_106356570_106356751_106356915_106357061_106357189_106357301_106357395_106357471_106357531_106357573_106357597_106357605_106357595_106357568_106357524_106357463_106357384_106357288_106357175_106357045_106356898_106356734_106356553_106356354_106356139_106355906_106355657_106355390_106355107_106354807_106354489_106354155_106353804_106353436_106353051_106352650_106352231_106351796_106351344_106350875_106350389_106349887_106349368_106348832_106348280_106347710_106347125_106346522_106345903_106345268_106344616_106343947_106343262_106342560_106341842_106341107_106340356_106339588_106338804_106338004_106337187_106336354_106335504_106334639_106333756_106332858_106331943_106331012_106330065_106329102_106328122_106327126_106326114_106325086_106324042_106322982_106321906_106320813_106319705_106318580_106317440_106316283_106315111_106313922_106312718_106311498_106310262_106309010_106307742_106306459_106305159_106303844_106302513_106301166_106299804_106298426_106297032_106295622_106294197_106292757_106291300_106289828_106288341_106286838_106285319_106283785_106282235_106280670_106279090_106277494_106275882_106274256_106272614_106270956_106269283_106267595_106265892_106264173_106262439_106260690_106258926_106257146_106255352_106253542_106251717_106249877_106248022_106246152_106244267_106242366_106240451_106238521_106236576_106234616_106232641_106230651_106228646_106226626_106224592_106222543_106220478_106218400_106216306_106214198_106212075_106209937_106207785_106205618_106203436_106201240_106199029_106196803_106194564_106192309_106190040_106187757_106185459_106183147_106180820_106178479_106176123_106173754_106171369_106168971_106166558_106164131_106161690_106159235_106156765_106154281_106151783_106149271_106146745_106144205_106141650_106139082_106136499_106133903_106131292_106128668_106126030_106123378_106120711_106118031_106115338_106112630_106109908_106107173_106104424_106101661_106098885_106096095_106093291_106090473_106087642_106084798_106081939_106079067_106076182_106073283_106070371_106067445_106064505_106061552_106058586_106055607_106052614_106049607_106046588_106043555_106040509_106037449_106034376_106031291_106028191_106025079_106021954_106018815_106015664_106012499_106009321_106006131_106002927_105999710_105996480_105993238_105989982_105986714,
  105983432_105980138_105976831_105973512_105970179_105966834_105963476_105960105_105956721_105953325_105949917_105946495_105943061_105939615_105936155_105932684_105929200_105925703_105922194_105918672_105915139_105911592_105908033_105904462_105900879_105897283_105893675_105890055_105886423_105882778_105879121_105875452_105871771_105868078_105864373_105860655_105856926_105853184_105849431_105845666_105841888_105838099_105834298_105830485_105826660_105822823_105818974_105815114_105811242_105807358_105803462_105799555_105795636_105791705_105787763_105783809_105779844_105775867_105771878_105767878_105763866_105759843_105755809_105751763_105747706_105743637_105739557_105735466_105731364_105727250_105723125_105718988_105714841_105710682_105706512_105702331_105698139_105693936_105689722_105685496_105681260_105677013_105672755_105668485_105664205_105659914_105655612_105651300_105646976_105642642_105638297_105633941_105629574_105625197_105620809_105616410_105612001_105607581_105603151_105598710_105594258_105589796_105585323_105580840_105576347_105571843_105567329_105562804_105558269_105553724_105549168_105544602_105540026_105535439_105530843_105526236_105521619_105516992_105512355_105507708_105503050_105498383_105493706_105489018_105484321_105479614_105474897_105470170_105465433_105460686_105455929_105451163_105446387_105441601_105436805_105432000_105427185_105422360_105417526_105412682_105407829_105402966_105398093_105393211_105388320_105383419_105378509_105373589_105368660_105363721_105358773_105353816_105348850_105343874_105338889_105333895_105328891_105323879_105318857_105313826_105308786_105303737_105298680_105293612_105288536_105283451_105278358_105273255_105268143_105263022_105257893_105252755_105247607_105242452_105237287_105232114_105226931_105221741_105216541_105211333_105206117_105200891_105195658_105190415_105185164_105179905_105174637_105169361_105164077_105158784_105153482_105148172_105142854_105137528_105132193_105126851_105121500_105116140_105110773_105105397_105100014_105094622_105089222_105083814_105078398_105072974_105067542_105062103_105056655_105051199_105045736_105040264_105034785_105029298_105023803_105018301_105012790_105007272_105001747_104996213_104990672_104985124_104979568_104974004_104968433_104962854_104957268_104951674_104946073_104940464_104934848_104929225_104923594_104917956_104912311_104906658_104900998_104895331_104889657_104883976_104878287_104872592_104866889_104861179_104855462_104849738_104844007_104838270_104832525_104826773_104821014_104815249_104809476_104803697_104797911_104792118,
  104786319_104780512_104774699_104768880_104763053_104757220_104751381_104745535_104739682_104733822_104727957_104722084_104716206_104710320_104704429_104698531_104692626_104686716_104680799_104674875_104668946_104663010_104657068_104651119_104645165_104639204_104633237_104627265_104621286_104615301_104609310_104603313_104597310_104591301_104585286_104579265_104573238_104567206_104561167_104555123_104549073_104543017_104536956_104530889_104524816_104518737_104512653_104506563_104500468_104494366_104488260_104482148_104476030_104469907_104463779_104457645_104451505_104445361_104439211_104433055_104426894_104420728_104414557_104408381_104402199_104396012_104389820_104383623_104377420_104371213_104365000_104358783_104352560_104346333_104340100_104333863_104327620_104321373_104315121_104308864_104302602_104296335_104290064_104283788_104277507_104271221_104264931_104258636_104252336_104246032_104239723_104233410_104227092_104220769_104214442_104208111_104201775_104195435_104189090_104182741_104176387_104170030_104163667_104157301_104150930_104144556_104138176_104131793_104125406_104119014_104112618_104106219_104099815_104093407_104086995_104080579_104074159_104067735_104061307_104054876_104048440_104042001_104035557_104029110_104022659_104016205_104009746_104003284_103996818_103990349_103983876_103977399_103970918_103964434_103957947_103951456_103944961_103938463_103931962_103925457_103918949_103912437_103905922_103899403_103892881_103886356_103879828_103873296_103866761_103860223_103853682_103847138_103840590_103834039_103827486_103820929_103814369_103807806_103801240_103794671_103788099_103781525_103774947_103768366_103761783_103755197_103748608_103742016_103735421_103728824_103722224_103715621_103709015_103702407_103695796_103689183_103682567_103675948_103669327_103662704_103656077_103649449_103642818_103636184_103629548_103622910_103616269_103609626_103602981_103596334_103589684_103583032_103576377_103569721_103563062_103556401_103549738_103543073_103536406_103529736_103523065_103516392_103509716_103503039_103496360_103489678_103482995_103476310_103469623_103462935_103456244_103449552_103442857_103436161_103429464_103422764_103416063_103409361_103402656_103395950_103389243_103382533_103375823_103369110_103362397_103355681_103348965_103342246_103335527_103328806_103322083_103315359_103308634_103301908_103295180_103288451_103281721_103274989_103268257_103261523_103254788_103248052_103241314_103234576_103227836_103221096_103214354_103207612_103200868_103194124_103187378_103180632_103173884_103167136_103160387_103153637,
  103146886_103140135_103133383_103126629_103119876_103113121_103106366_103099610_103092854_103086096_103079339_103072580_103065822_103059062_103052302_103045542_103038781_103032019_103025258_103018495_103011733_103004970_102998206_102991443_102984679_102977914_102971150_102964385_102957620_102950855_102944089_102937324_102930558_102923792_102917026_102910260_102903494_102896728_102889962_102883196_102876430_102869664_102862898_102856132_102849366_102842600_102835835_102829069_102822304_102815539_102808774_102802010_102795246_102788482_102781718_102774955_102768192_102761429_102754667_102747905_102741144_102734383_102727623_102720863_102714103_102707345_102700586_102693829_102687071_102680315_102673559_102666804_102660049_102653295_102646542_102639790_102633038_102626287_102619537_102612788_102606039_102599292_102592545_102585799_102579054_102572310_102565567_102558825_102552084_102545344_102538605_102531867_102525130_102518395_102511660_102504926_102498194_102491463_102484732_102478004_102471276_102464550_102457824_102451101_102444378_102437657_102430937_102424218_102417501_102410786_102404071_102397358_102390647_102383937_102377228_102370522_102363816_102357112_102350410_102343709_102337010_102330313_102323617_102316923_102310230_102303539_102296850_102290163_102283478_102276794_102270112_102263432_102256753_102250077_102243402_102236729_102230059_102223390_102216723_102210058_102203395_102196734_102190075_102183418_102176763_102170110_102163460_102156811_102150164_102143520_102136878_102130238_102123600_102116965_102110331_102103700_102097071_102090445_102083821_102077199_102070579_102063962_102057347_102050735_102044125_102037517_102030912_102024310_102017710_102011112_102004517_101997924_101991334_101984747_101978162_101971580_101965000_101958423_101951849_101945277_101938708_101932142_101925579_101919018_101912460_101905905_101899353_101892803_101886256_101879713_101873172_101866634_101860098_101853566_101847037_101840510_101833987_101827467_101820949_101814435_101807924_101801415_101794910_101788408_101781909_101775413_101768921_101762431_101755945_101749461_101742981_101736505_101730031_101723561_101717094_101710630_101704170_101697713_101691259_101684809_101678362_101671918_101665478_101659041_101652608_101646178_101639752_101633329_101626909_101620493_101614081_101607672_101601267_101594865_101588467_101582073_101575682_101569295_101562911_101556532_101550156_101543783_101537414_101531049_101524688_101518331_101511977_101505628_101499282_101492939_101486601_101480267_101473936_101467609_101461287_101454968,
  101448653_101442342_101436035_101429732_101423433_101417139_101410848_101404561_101398278_101391999_101385725_101379454_101373188_101366926_101360668_101354414_101348164_101341919_101335678_101329441_101323208_101316979_101310755_101304535_101298319_101292108_101285901_101279699_101273500_101267306_101261117_101254932_101248751_101242575_101236403_101230236_101224073_101217915_101211761_101205611_101199467_101193326_101187191_101181060_101174933_101168811_101162694_101156581_101150473_101144370_101138271_101132177_101126088_101120004_101113924_101107849_101101779_101095713_101089652_101083596_101077545_101071499_101065458_101059421_101053389_101047363_101041341_101035324_101029311_101023304_101017302_101011305_101005313_100999325_100993343_100987366_100981394_100975426_100969464_100963507_100957555_100951608_100945667_100939730_100933798_100927872_100921951_100916035_100910124_100904218_100898318_100892423_100886533_100880648_100874768_100868894_100863025_100857162_100851303_100845450_100839603_100833761_100827924_100822092_100816266_100810445_100804630_100798820_100793015_100787216_100781423_100775635_100769852_100764075_100758303_100752537_100746777_100741022_100735272_100729528_100723790_100718057_100712330_100706609_100700893_100695182_100689478_100683779_100678086_100672398_100666716_100661040_100655370_100649705_100644046_100638393_100632745_100627104_100621468_100615838_100610214_100604595_100598983_100593376_100587775_100582180_100576591_100571007_100565430_100559859_100554293_100548733_100543180_100537632_100532090_100526555_100521025_100515501_100509983_100504472_100498966_100493466_100487973_100482485_100477004_100471528_100466059_100460596_100455139_100449688_100444243_100438804_100433372_100427945_100422525_100417111_100411703_100406302_100400906_100395517_100390134_100384757_100379387_100374023_100368665_100363313_100357968_100352629_100347297_100341970_100336650_100331337_100326029_100320728_100315434_100310146_100304864_100299588_100294319_100289057_100283801_100278551_100273308_100268071_100262841_100257617_100252400_100247189_100241985_100236787_100231596_100226411_100221233_100216061_100210896_100205737_100200585_100195440_100190301_100185169_100180043_100174925_100169812_100164707_100159608_100154515_100149430_100144351_100139278_100134213_100129154_100124101_100119056_100114017_100108985_100103960_100098941_100093929_100088924_100083926_100078935_100073950_100068972_100064001_100059037_100054079_100049129_100044185_100039248_100034318_100029395_100024478_100019569_100014666_100009771_100004882,
  100000000_099995125_099990257_099985396_099980542_099975695_099970854_099966021_099961195_099956375_099951563_099946758_099941959_099937168_099932384_099927606_099922836_099918073_099913317_099908568_099903826_099899091_099894363_099889642_099884928_099880221_099875522_099870829_099866144_099861465_099856794_099852130_099847473_099842824_099838181_099833546_099828918_099824297_099819683_099815076_099810476_099805884_099801299_099796721_099792151_099787587_099783031_099778482_099773940_099769406_099764878_099760359_099755846_099751340_099746842_099742351_099737868_099733392_099728923_099724461_099720007_099715560_099711120_099706688_099702263_099697845_099693435_099689032_099684636_099680248_099675867_099671493_099667127_099662769_099658417_099654073_099649737_099645408_099641086_099636772_099632465_099628166_099623874_099619589_099615312_099611042_099606780_099602525_099598278_099594038_099589806_099585581_099581364_099577154_099572952_099568757_099564570_099560390_099556218_099552053_099547895_099543746_099539604_099535469_099531342_099527222_099523110_099519006_099514909_099510819_099506738_099502663_099498597_099494538_099490486_099486443_099482406_099478378_099474357_099470343_099466337_099462339_099458348_099454365_099450390_099446422_099442462_099438510_099434565_099430628_099426698_099422776_099418862_099414956_099411057_099407166_099403282_099399406_099395538_099391677_099387825_099383979_099380142_099376312_099372490_099368676_099364869_099361070_099357279_099353496_099349720_099345952_099342191_099338439_099334694_099330957_099327227_099323506_099319792_099316085_099312387_099308696_099305013_099301338_099297671_099294011_099290359_099286715_099283079_099279450_099275829_099272216_099268611_099265014_099261424_099257842_099254268_099250701_099247143_099243592_099240049_099236514_099232987_099229467_099225956_099222452_099218956_099215467_099211987_099208514_099205049_099201592_099198143_099194702_099191268_099187842_099184425_099181015_099177612_099174218_099170831_099167453_099164082_099160719_099157364_099154016_099150677_099147345_099144021_099140706_099137397_099134097_099130805_099127520_099124244_099120975_099117714_099114461_099111216_099107978_099104749_099101527_099098314_099095108_099091910_099088720_099085537_099082363_099079196_099076038_099072887_099069744_099066609_099063482_099060363_099057251_099054148_099051052_099047964_099044884_099041812_099038748_099035692_099032644_099029603_099026571_099023546_099020529_099017520_099014519_099011526_099008541_099005564_099002594_098999632_098996679,
  98993733_098990795_098987865_098984943_098982028_098979122_098976224_098973333_098970450_098967575_098964708_098961849_098958998_098956155_098953319_098950492_098947672_098944860_098942056_098939260_098936472_098933692_098930920_098928155_098925399_098922650_098919909_098917176_098914451_098911734_098909025_098906323_098903629_098900944_098898266_098895596_098892934_098890280_098887633_098884995_098882364_098879742_098877127_098874520_098871920_098869329_098866746_098864170_098861603_098859043_098856491_098853947_098851410_098848882_098846361_098843849_098841344_098838847_098836358_098833876_098831403_098828937_098826479_098824029_098821587_098819153_098816726_098814308_098811897_098809494_098807099_098804711_098802332_098799960_098797596_098795240_098792892_098790552_098788219_098785894_098783577_098781268_098778967_098776673_098774388_098772110_098769839_098767577_098765322_098763076_098760837_098758605_098756382_098754166_098751958_098749758_098747566_098745381_098743204_098741035_098738874_098736720_098734575_098732437_098730306_098728184_098726069_098723962_098721863_098719771_098717687_098715611_098713543_098711482_098709429_098707384_098705347_098703317_098701295_098699281_098697274_098695275_098693284_098691300_098689325_098687356_098685396_098683443_098681498_098679561_098677631_098675709_098673795_098671888_098669989_098668097_098666214_098664338_098662469_098660608_098658755_098656910_098655072_098653241_098651419_098649604_098647796_098645997_098644204_098642420_098640643_098638874_098637112_098635358_098633611_098631872_098630141_098628417_098626701_098624992_098623291_098621597_098619911_098618233_098616562_098614899_098613243_098611595_098609954_098608321_098606695_098605077_098603466_098601863_098600268_098598680_098597099_098595526_098593960_098592402_098590851_098589308_098587773_098586244_098584724_098583210_098581705_098580206_098578715_098577232_098575756_098574287_098572826_098571372_098569926_098568487_098567055_098565631_098564214_098562805_098561403_098560008_098558621_098557241_098555869_098554504_098553146_098551796_098550453_098549117_098547789_098546468_098545154_098543848_098542549_098541257_098539973_098538696_098537426_098536163_098534908_098533660_098532420_098531186_098529960_098528741_098527530_098526326_098525128_098523939_098522756_098521581_098520412_098519252_098518098_098516951_098515812_098514680_098513555_098512437_098511327_098510223_098509127_098508038_098506956_098505881_098504814_098503753_098502700_098501654_098500615_098499583_098498558_098497540_098496529_098495526,
  98494529_098493540_098492558_098491582_098490614_098489653_098488699_098487752_098486812_098485879_098484953_098484034_098483122_098482217_098481319_098480428_098479544_098478667_098477797_098476934_098476078_098475229_098474387_098473552_098472723_098471902_098471088_098470280_098469479_098468686_098467899_098467119_098466346_098465580_098464821_098464068_098463323_098462584_098461852_098461127_098460409_098459697_098458993_098458295_098457604_098456920_098456243_098455572_098454908_098454251_098453601_098452957_098452321_098451691_098451067_098450451_098449841_098449238_098448641_098448052_098447469_098446892_098446323_098445760_098445203_098444653_098444110_098443574_098443044_098442521_098442005_098441495_098440991_098440495_098440005_098439521_098439044_098438574_098438110_098437653_098437202_098436758_098436320_098435889_098435464_098435046_098434635_098434230_098433831_098433439_098433053_098432674_098432301_098431935_098431575_098431222_098430875_098430534_098430200_098429872_098429551_098429236_098428927_098428625_098428329_098428040_098427756_098427480_098427209_098426945_098426687_098426435_098426190_098425951_098425719_098425492_098425272_098425058_098424851_098424649_098424454_098424265_098424082_098423906_098423736_098423572_098423414_098423262_098423117_098422977_098422844_098422717_098422596_098422481_098422372_098422270_098422173_098422083_098421999_098421921_098421848_098421782_098421722_098421668_098421621_098421579_098421543_098421513_098421489_098421471_098421459_098421454_098421454_098421460_098421472_098421490_098421514_098421543_098421579_098421621_098421668_098421722_098421781_098421846_098421917_098421994_098422077_098422166_098422260_098422360_098422467_098422578_098422696_098422820_098422949_098423084_098423225_098423371_098423524_098423682_098423846_098424015_098424190_098424371_098424558_098424750_098424948_098425152_098425361_098425576_098425796_098426023_098426254_098426492_098426735_098426984_098427238_098427498_098427763_098428034_098428310_098428592_098428880_098429173_098429471_098429776_098430085_098430400_098430721_098431047_098431378_098431715_098432057_098432405_098432758_098433117_098433481_098433850_098434225_098434605_098434991_098435381_098435778_098436179_098436586_098436998_098437416_098437839_098438267_098438700_098439139_098439583_098440032_098440486_098440946_098441410_098441881_098442356_098442836_098443322_098443813_098444309_098444810_098445316_098445828_098446344_098446866_098447393_098447924_098448461_098449003_098449551_098450103_098450660_098451222_098451790,
  98452362_098452939_098453522_098454109_098454701_098455298_098455901_098456508_098457120_098457737_098458359_098458986_098459618_098460255_098460896_098461543_098462194_098462850_098463511_098464177_098464848_098465524_098466204_098466889_098467579_098468274_098468973_098469677_098470386_098471100_098471819_098472542_098473270_098474002_098474739_098475481_098476228_098476979_098477735_098478496_098479261_098480031_098480805_098481584_098482368_098483156_098483949_098484746_098485548_098486354_098487165_098487981_098488801_098489625_098490454_098491287_098492125_098492968_098493815_098494666_098495521_098496381_098497246_098498115_098498988_098499866_098500748_098501634_098502525_098503420_098504319_098505223_098506131_098507043_098507960_098508881_098509806_098510735_098511669_098512607_098513549_098514495_098515445_098516400_098517359_098518322_098519289_098520261_098521236_098522216_098523199_098524187_098525179_098526175_098527175_098528180_098529188_098530200_098531216_098532237_098533261_098534290_098535322_098536358_098537399_098538443_098539491_098540544_098541600_098542660_098543724_098544792_098545863_098546939_098548019_098549102_098550189_098551280_098552375_098553474_098554577_098555683_098556793_098557907_098559025_098560146_098561271_098562400_098563533_098564669_098565809_098566953_098568101_098569252_098570407_098571565_098572727_098573893_098575062_098576235_098577412_098578592_098579775_098580963_098582154_098583348_098584546_098585747_098586952_098588161_098589373_098590588_098591807_098593030_098594255_098595485_098596717_098597954_098599193_098600436_098601682_098602932_098604185_098605442_098606701_098607965_098609231_098610501_098611774_098613050_098614330_098615613_098616899_098618189_098619481_098620777_098622076_098623379_098624684_098625993_098627305_098628620_098629938_098631259_098632584_098633912_098635242_098636576_098637913_098639253_098640596_098641942_098643292_098644644_098645999_098647358_098648719_098650083_098651450_098652821_098654194_098655570_098656949_098658331_098659716_098661104_098662495_098663889_098665285_098666685_098668087_098669492_098670900_098672311_098673725_098675141_098676560_098677982_098679407_098680835_098682265_098683698_098685134_098686572_098688014_098689458_098690904_098692354_098693806_098695260_098696717_098698177_098699640_098701105_098702573_098704043_098705516_098706991_098708470_098709950_098711433_098712919_098714407_098715898_098717391_098718887_098720385_098721886_098723389_098724894_098726402_098727913_098729425_098730941_098732458_098733978,
  98735501_098737025_098738552_098740082_098741614_098743148_098744684_098746223_098747764_098749307_098750852_098752400_098753950_098755502_098757057_098758613_098760172_098761733_098763296_098764862_098766429_098767999_098769571_098771145_098772721_098774299_098775879_098777462_098779046_098780633_098782221_098783812_098785405_098786999_098788596_098790195_098791795_098793398_098795003_098796609_098798218_098799828_098801441_098803055_098804671_098806289_098807909_098809531_098811155_098812781_098814408_098816037_098817669_098819301_098820936_098822573_098824211_098825851_098827493_098829136_098830782_098832429_098834078_098835728_098837380_098839034_098840690_098842347_098844006_098845666_098847328_098848992_098850658_098852325_098853993_098855663_098857335_098859008_098860683_098862360_098864037_098865717_098867398_098869080_098870764_098872450_098874137_098875825_098877515_098879206_098880899_098882593_098884288_098885985_098887684_098889383_098891084_098892787_098894490_098896196_098897902_098899610_098901319_098903029_098904741_098906453_098908168_098909883_098911600_098913318_098915037_098916757_098918478_098920201_098921925_098923650_098925376_098927104_098928832_098930562_098932293_098934025_098935758_098937492_098939227_098940963_098942700_098944439_098946178_098947919_098949660_098951402_098953146_098954890_098956636_098958382_098960130_098961878_098963627_098965377_098967128_098968880_098970633_098972387_098974142_098975897_098977654_098979411_098981169_098982928_098984688_098986448_098988210_098989972_098991735_098993499_098995263_098997028_098998794_099000561_099002328_099004097_099005865_099007635_099009405_099011176_099012948_099014720_099016493_099018266_099020040_099021815_099023590_099025366_099027143_099028920_099030697_099032476_099034254_099036034_099037813_099039594_099041374_099043156_099044938_099046720_099048503_099050286_099052069_099053854_099055638_099057423_099059208_099060994_099062780_099064567_099066354_099068141_099069929_099071716_099073505_099075293_099077082_099078872_099080661_099082451_099084241_099086031_099087822_099089613_099091404_099093195_099094987_099096778_099098570_099100362_099102155_099103947_099105740_099107533_099109326_099111119_099112912_099114705_099116499_099118292_099120086_099121879_099123673_099125467_099127261_099129055_099130849_099132643_099134437_099136231_099138025_099139819_099141613_099143406_099145200_099146994_099148788_099150582_099152375_099154169_099155962_099157755_099159549_099161342_099163135_099164927_099166720_099168512_099170305_099172097,
  99173889_099175681_099177472_099179263_099181055_099182845_099184636_099186426_099188216_099190006_099191796_099193585_099195374_099197163_099198951_099200739_099202527_099204314_099206101_099207888_099209674_099211460_099213246_099215031_099216816_099218600_099220384_099222167_099223950_099225733_099227515_099229297_099231078_099232859_099234639_099236419_099238198_099239976_099241755_099243532_099245309_099247086_099248862_099250637_099252412_099254187_099255960_099257733_099259506_099261278_099263049_099264819_099266589_099268359_099270127_099271895_099273663_099275429_099277195_099278960_099280725_099282489_099284252_099286014_099287776_099289536_099291296_099293056_099294814_099296572_099298329_099300085_099301840_099303595_099305348_099307101_099308853_099310604_099312355_099314104_099315852_099317600_099319347_099321093_099322838_099324582_099326325_099328067_099329808_099331548_099333288_099335026_099336763_099338500_099340235_099341969_099343703_099345435_099347167_099348897_099350626_099352354_099354082_099355808_099357533_099359257_099360980_099362702_099364422_099366142_099367860_099369578_099371294_099373009_099374723_099376436_099378147_099379858_099381567_099383275_099384982_099386688_099388392_099390095_099391798_099393498_099395198_099396896_099398593_099400289_099401984_099403677_099405369_099407060_099408749_099410437_099412124_099413809_099415494_099417176_099418858_099420538_099422217_099423894_099425570_099427245_099428918_099430590_099432260_099433929_099435597_099437263_099438928_099440591_099442253_099443913_099445572_099447230_099448886_099450540_099452193_099453845_099455495_099457143_099458791_099460436_099462080_099463722_099465363_099467003_099468640_099470277_099471911_099473544_099475176_099476806_099478434_099480061_099481686_099483309_099484931_099486551_099488170_099489786_099491402_099493015_099494627_099496237_099497846_099499453_099501058_099502661_099504263_099505863_099507461_099509058_099510653_099512246_099513837_099515427_099517015_099518601_099520185_099521767_099523348_099524927_099526504_099528079_099529653_099531225_099532794_099534362_099535929_099537493_099539055_099540616_099542175_099543732_099545287_099546840_099548391_099549940_099551488_099553033_099554577_099556119_099557658_099559196_099560732_099562266_099563798_099565328_099566856_099568382_099569906_099571428_099572948_099574467_099575983_099577497_099579009_099580519_099582027_099583533_099585037_099586539_099588039_099589537_099591033_099592527_099594018_099595508_099596995_099598481_099599964_099601445,
  99602924_099604401_099605876_099607349_099608820_099610288_099611754_099613219_099614681_099616141_099617598_099619054_099620507_099621959_099623408_099624854_099626299_099627741_099629182_099630620_099632056_099633489_099634920_099636350_099637776_099639201_099640623_099642044_099643461_099644877_099646290_099647701_099649110_099650517_099651921_099653323_099654722_099656120_099657514_099658907_099660297_099661685_099663071_099664454_099665835_099667214_099668590_099669964_099671336_099672705_099674072_099675436_099676798_099678158_099679515_099680870_099682222_099683572_099684920_099686265_099687608_099688948_099690286_099691622_099692955_099694286_099695614_099696939_099698263_099699583_099700902_099702217_099703531_099704842_099706150_099707456_099708759_099710060_099711359_099712654_099713948_099715239_099716527_099717813_099719096_099720377_099721655_099722930_099724203_099725474_099726742_099728007_099729270_099730530_099731788_099733043_099734295_099735545_099736793_099738037_099739279_099740519_099741756_099742990_099744222_099745451_099746677_099747901_099749122_099750340_099751556_099752770_099753980_099755188_099756393_099757596_099758796_099759993_099761187_099762379_099763568_099764755_099765939_099767120_099768298_099769474_099770647_099771817_099772985_099774150_099775312_099776471_099777628_099778782_099779933_099781082_099782228_099783371_099784511_099785648_099786783_099787915_099789044_099790171_099791294_099792415_099793533_099794649_099795761_099796871_099797978_099799082_099800184_099801282_099802378_099803471_099804561_099805648_099806733_099807815_099808893_099809969_099811043_099812113_099813181_099814245_099815307_099816366_099817422_099818476_099819526_099820574_099821619_099822660_099823699_099824736_099825769_099826799_099827827_099828851_099829873_099830892_099831908_099832921_099833931_099834938_099835943_099836944_099837943_099838938_099839931_099840921_099841908_099842892_099843873_099844851_099845826_099846798_099847768_099848734_099849697_099850658_099851615_099852570_099853522_099854470_099855416_099856359_099857299_099858236_099859170_099860100_099861028_099861953_099862875_099863794_099864711_099865624_099866534_099867441_099868345_099869246_099870144_099871039_099871932_099872821_099873707_099874590_099875470_099876347_099877221_099878092_099878961_099879826_099880688_099881547_099882403_099883256_099884106_099884953_099885797_099886637_099887475_099888310_099889142_099889971_099890796_099891619_099892439_099893255_099894069_099894879_099895686_099896491_099897292_099898090,
  99898886_099899678_099900467_099901253_099902036_099902816_099903592_099904366_099905137_099905904_099906669_099907430_099908189_099908944_099909696_099910445_099911191_099911934_099912674_099913411_099914144_099914875_099915603_099916327_099917048_099917767_099918482_099919194_099919903_099920609_099921311_099922011_099922707_099923401_099924091_099924778_099925462_099926143_099926821_099927496_099928168_099928836_099929502_099930164_099930823_099931479_099932132_099932782_099933429_099934073_099934713_099935350_099935985_099936616_099937244_099937869_099938490_099939109_099939724_099940337_099940946_099941552_099942155_099942755_099943352_099943945_099944536_099945123_099945707_099946288_099946866_099947441_099948012_099948581_099949146_099949708_099950267_099950823_099951376_099951926_099952472_099953016_099953556_099954093_099954627_099955158_099955685_099956210_099956731_099957250_099957765_099958277_099958785_099959291_099959794_099960293_099960789_099961282_099961772_099962259_099962743_099963223_099963700_099964175_099964646_099965114_099965578_099966040_099966499_099966954_099967406_099967855_099968301_099968744_099969183_099969620_099970053_099970483_099970910_099971334_099971755_099972173_099972587_099972998_099973407_099973812_099974213_099974612_099975008_099975400_099975790_099976176_099976559_099976939_099977315_099977689_099978060_099978427_099978791_099979152_099979510_099979865_099980217_099980565_099980910_099981253_099981592_099981928_099982261_099982590_099982917_099983240_099983561_099983878_099984192_099984503_099984811_099985116_099985417_099985716_099986011_099986303_099986592_099986878_099987161_099987441_099987717_099987991_099988261_099988529_099988793_099989054_099989312_099989567_099989818_099990067_099990312_099990555_099990794_099991030_099991263_099991493_099991720_099991944_099992164_099992382_099992596_099992808_099993016_099993221_099993423_099993622_099993818_099994011_099994201_099994388_099994571_099994752_099994929_099995103_099995275_099995443_099995608_099995770_099995929_099996085_099996237_099996387_099996534_099996677_099996818_099996955_099997090_099997221_099997350_099997475_099997597_099997716_099997832_099997945_099998055_099998162_099998266_099998367_099998465_099998559_099998651_099998740_099998826_099998908_099998988_099999064_099999138_099999208_099999276_099999340_099999402_099999460_099999516_099999568_099999618_099999664_099999707_099999748_099999785_099999819_099999851_099999879_099999905_099999927_099999946_099999963_099999976_099999987_099999994_099999999]

/-- `_lanczos5_vtable`, pmesh/_window_lanczos.h:6242-8290: 8192 entries. -/
def lanczos5Rows : List ℕ := [
  200064779_200064716_200064524_200064205_200063759_200063185_200062484_200061655_200060698_200059614_200058402_200057063_200055597_200054002_200052281_200050432_200048455_200046351_200044119_200041760_200039273_200036659_200033917_200031048_200028052_200024928_200021676_200018297_200014791_200011157_200007396_200003507_199999491_199995348_199991077_199986679_199982154_199977501_199972721_199967813_199962779_199957616_199952327_199946911_199941367_199935696_199929897_199923972_199917919_199911739_199905432_199898998_199892436_199885748_199878932_199871989_199864919_199857722_199850398_199842948_199835370_199827665_199819833_199811874_199803788_199795575_199787236_199778769_199770176_199761456_199752609_199743635_199734534_199725307_199715953_199706472_199696865_199687131_199677270_199667283_199657169_199646928_199636561_199626068_199615448_199604701_199593828_199582829_199571703_199560451_199549073_199537568_199525937_199514180_199502297_199490287_199478152_199465890_199453502_199440988_199428348_199415581_199402689_199389671_199376527_199363258_199349862_199336340_199322693_199308920_199295021_199280997_199266847_199252571_199238170_199223643_199208990_199194212_199179309_199164280_199149126_199133847_199118442_199102912_199087257_199071476_199055571_199039540_199023384_199007103_198990697_198974167_198957511_198940730_198923825_198906795_198889640_198872360_198854956_198837427_198819773_198801995_198784092_198766065_198747914_198729638_198711238_198692713_198674064_198655291_198636394_198617373_198598228_198578958_198559565_198540048_198520407_198500642_198480753_198460741_198440605_198420345_198399962_198379455_198358825_198338071_198317194_198296193_198275069_198253822_198232452_198210959_198189342_198167603_198145740_198123755_198101647_198079416_198057062_198034585_198011986_197989264_197966420_197943453_197920364_197897152_197873818_197850361_197826783_197803082_197779259_197755314_197731248_197707059_197682748_197658316_197633761_197609085_197584288_197559369_197534328_197509166_197483882_197458477_197432951_197407304_197381535_197355645_197329635_197303503_197277250_197250877_197224383_197197768_197171032_197144176_197117199_197090102_197062885_197035547_197008089_196980510_196952812_196924993_196897055_196868996_196840818_196812520_196784102_196755564_196726907_196698131_196669234_196640219_196611084_196581830_196552457_196522964_196493353_196463622_196433773_196403805_196373718_196343513_196313189_196282746_196252185_196221505_196190707_196159791_196128757_196097605_196066334_196034946_196003440_195971816,
  195940074_195908215_195876238_195844143_195811931_195779602_195747156_195714592_195681911_195649114_195616199_195583167_195550019_195516754_195483372_195449874_195416259_195382528_195348681_195314717_195280637_195246442_195212130_195177702_195143158_195108499_195073724_195038833_195003827_194968706_194933469_194898117_194862650_194827068_194791371_194755559_194719632_194683590_194647434_194611163_194574778_194538278_194501664_194464936_194428093_194391137_194354067_194316883_194279585_194242173_194204648_194167009_194129257_194091392_194053413_194015321_193977117_193938799_193900368_193861825_193823169_193784400_193745519_193706525_193667419_193628201_193588871_193549429_193509875_193470209_193430431_193390541_193350540_193310428_193270204_193229869_193189423_193148865_193108197_193067418_193026528_192985527_192944416_192903194_192861862_192820419_192778867_192737204_192695431_192653548_192611556_192569454_192527242_192484921_192442490_192399950_192357301_192314542_192271675_192228699_192185614_192142420_192099118_192055707_192012188_191968561_191924825_191880982_191837030_191792970_191748803_191704528_191660146_191615656_191571059_191526354_191481543_191436624_191391599_191346466_191301227_191255882_191210430_191164871_191119206_191073436_191027559_190981576_190935487_190889293_190842993_190796587_190750076_190703460_190656739_190609912_190562981_190515945_190468804_190421558_190374208_190326754_190279195_190231532_190183765_190135894_190087919_190039841_189991659_189943373_189894984_189846492_189797897_189749199_189700397_189651493_189602487_189553377_189504166_189454852_189405435_189355917_189306297_189256575_189206751_189156825_189106798_189056670_189006440_188956109_188905677_188855144_188804511_188753776_188702941_188652006_188600970_188549835_188498599_188447263_188395827_188344292_188292657_188240923_188189089_188137156_188085124_188032993_187980763_187928434_187876007_187823481_187770857_187718135_187665314_187612396_187559379_187506265_187453054_187399745_187346338_187292834_187239233_187185536_187131741_187077850_187023862_186969777_186915596_186861319_186806946_186752477_186697912_186643251_186588495_186533644_186478697_186423654_186368517_186313285_186257958_186202536_186147020_186091410_186035705_185979906_185924013_185868026_185811945_185755771_185699503_185643142_185586688_185530140_185473500_185416766_185359941_185303022_185246011_185188908_185131713_185074425_185017046_184959575_184902012_184844358_184786613_184728776_184670848_184612829_184554720_184496520_184438229_184379848_184321376_184262815,
  184204163_184145422_184086591_184027670_183968660_183909561_183850372_183791095_183731728_183672273_183612730_183553097_183493377_183433568_183373671_183313687_183253614_183193454_183133207_183072872_183012450_182951940_182891344_182830662_182769892_182709036_182648094_182587065_182525951_182464750_182403464_182342092_182280635_182219092_182157464_182095751_182033953_181972070_181910103_181848051_181785915_181723695_181661390_181599002_181536530_181473974_181411335_181348613_181285807_181222919_181159947_181096893_181033756_180970537_180907235_180843851_180780386_180716838_180653209_180589498_180525706_180461832_180397878_180333842_180269726_180205529_180141251_180076893_180012455_179947937_179883339_179818661_179753903_179689067_179624150_179559155_179494081_179428927_179363695_179298385_179232996_179167529_179101983_179036360_178970659_178904880_178839024_178773091_178707080_178640992_178574828_178508586_178442268_178375874_178309403_178242857_178176234_178109536_178042762_177975912_177908987_177841987_177774912_177707762_177640537_177573238_177505864_177438416_177370894_177303298_177235628_177167885_177100068_177032178_176964214_176896178_176828069_176759887_176691633_176623306_176554907_176486436_176417893_176349278_176280592_176211834_176143005_176074105_176005134_175936093_175866980_175797797_175728544_175659221_175589828_175520365_175450832_175381229_175311558_175241817_175172007_175102128_175032181_174962165_174892081_174821928_174751707_174681419_174611063_174540639_174470147_174399589_174328963_174258271_174187511_174116686_174045793_173974835_173903810_173832719_173761563_173690341_173619053_173547700_173476282_173404799_173333251_173261639_173189962_173118221_173046415_172974546_172902613_172830616_172758556_172686432_172614245_172541995_172469683_172397307_172324870_172252370_172179807_172107183_172034497_171961749_171888940_171816069_171743137_171670144_171597091_171523976_171450801_171377566_171304271_171230915_171157500_171084025_171010491_170936897_170863244_170789533_170715762_170641932_170568045_170494098_170420094_170346032_170271912_170197734_170123499_170049206_169974856_169900450_169825986_169751466_169676889_169602256_169527567_169452822_169378022_169303165_169228253_169153286_169078264_169003187_168928055_168852868_168777627_168702332_168626983_168551579_168476123_168400612_168325048_168249431_168173761_168098038_168022262_167946433_167870553_167794620_167718635_167642598_167566509_167490369_167414178_167337935_167261642_167185297_167108902_167032457_166955961_166879415_166802819_166726174,
  166649478_166572734_166495939_166419096_166342204_166265264_166188274_166111236_166034150_165957016_165879835_165802605_165725328_165648003_165570632_165493213_165415747_165338235_165260676_165183071_165105420_165027723_164949980_164872192_164794358_164716478_164638554_164560585_164482571_164404512_164326409_164248262_164170071_164091836_164013557_163935235_163856869_163778461_163700009_163621514_163542977_163464397_163385775_163307111_163228405_163149657_163070868_162992037_162913165_162834252_162755298_162676304_162597269_162518193_162439078_162359922_162280727_162201491_162122217_162042903_161963550_161884158_161804727_161725258_161645751_161566205_161486621_161406999_161327340_161247643_161167908_161088137_161008328_160928483_160848601_160768683_160688728_160608737_160528711_160448648_160368550_160288417_160208248_160128045_160047806_159967533_159887225_159806883_159726507_159646097_159565653_159485176_159404665_159324121_159243544_159162934_159082291_159001616_158920908_158840168_158759396_158678592_158597757_158516890_158435992_158355063_158274102_158193112_158112090_158031038_157949956_157868844_157787702_157706530_157625329_157544098_157462839_157381550_157300233_157218887_157137512_157056109_156974678_156893220_156811733_156730219_156648678_156567110_156485514_156403892_156322243_156240567_156158866_156077138_155995384_155913605_155831800_155749969_155668114_155586233_155504327_155422397_155340443_155258464_155176460_155094433_155012382_154930308_154848210_154766089_154683945_154601778_154519588_154437376_154355141_154272884_154190606_154108305_154025983_153943639_153861274_153778888_153696481_153614054_153531605_153449137_153366648_153284139_153201611_153119063_153036495_152953908_152871302_152788677_152706033_152623370_152540689_152457990_152375273_152292538_152209786_152127016_152044228_151961424_151878602_151795764_151712909_151630037_151547150_151464246_151381326_151298391_151215440_151132474_151049492_150966496_150883485_150800459_150717418_150634364_150551295_150468212_150385116_150302006_150218883_150135746_150052596_149969434_149886259_149803071_149719871_149636659_149553435_149470199_149386952_149303693_149220423_149137141_149053849_148970547_148887233_148803910_148720576_148637232_148553878_148470515_148387142_148303760_148220369_148136968_148053559_147970142_147886716_147803282_147719840_147636390_147552932_147469467_147385994_147302515_147219028_147135534_147052034_146968528_146885015_146801496_146717971_146634441_146550905_146467363_146383816_146300265_146216708_146133147_146049581_145966011,
  145882437_145798858_145715276_145631691_145548102_145464509_145380914_145297316_145213715_145130111_145046505_144962897_144879287_144795675_144712061_144628446_144544829_144461212_144377593_144293974_144210354_144126733_144043112_143959491_143875871_143792250_143708630_143625011_143541392_143457774_143374157_143290542_143206928_143123316_143039706_142956098_142872492_142788888_142705287_142621688_142538092_142454500_142370911_142287325_142203742_142120164_142036589_141953018_141869452_141785890_141702333_141618781_141535233_141451691_141368154_141284623_141201097_141117577_141034063_140950555_140867054_140783559_140700070_140616589_140533115_140449648_140366188_140282736_140199292_140115855_140032427_139949007_139865595_139782192_139698798_139615413_139532036_139448669_139365312_139281964_139198626_139115298_139031980_138948672_138865375_138782089_138698813_138615548_138532295_138449053_138365822_138282603_138199396_138116201_138033018_137949848_137866690_137783544_137700412_137617293_137534187_137451094_137368015_137284949_137201897_137118860_137035837_136952828_136869833_136786854_136703889_136620939_136538005_136455086_136372182_136289295_136206423_136123567_136040728_135957905_135875098_135792309_135709536_135626780_135544042_135461321_135378617_135295931_135213264_135130614_135047983_134965369_134882775_134800199_134717643_134635105_134552587_134470087_134387608_134305148_134222709_134140289_134057889_133975510_133893152_133810814_133728497_133646202_133563927_133481674_133399442_133317232_133235045_133152879_133070735_132988614_132906515_132824439_132742386_132660355_132578348_132496365_132414405_132332468_132250556_132168667_132086803_132004963_131923147_131841356_131759590_131677849_131596133_131514443_131432777_131351138_131269524_131187936_131106375_131024839_130943330_130861848_130780392_130698964_130617562_130536187_130454840_130373521_130292229_130210965_130129729_130048522_129967342_129886192_129805069_129723976_129642912_129561877_129480871_129399894_129318947_129238030_129157143_129076286_128995459_128914663_128833897_128753162_128672458_128591785_128511143_128430532_128349953_128269405_128188890_128108406_128027954_127947535_127867148_127786794_127706472_127626183_127545928_127465705_127385516_127305361_127225239_127145151_127065097_126985077_126905091_126825140_126745223_126665341_126585494_126505683_126425906_126346164_126266459_126186788_126107154_126027556_125947993_125868467_125788978_125709525_125630108_125550729_125471386_125392081_125312813_125233583_125154390_125075235_124996118_124917039,
  124837998_124758996_124680032_124601106_124522220_124443373_124364564_124285795_124207066_124128375_124049725_123971115_123892544_123814014_123735524_123657074_123578665_123500297_123421969_123343683_123265438_123187234_123109072_123030951_122952872_122874835_122796840_122718887_122640977_122563109_122485283_122407501_122329761_122252065_122174411_122096801_122019235_121941712_121864233_121786798_121709407_121632060_121554757_121477499_121400286_121323117_121245994_121168915_121091882_121014894_120937951_120861054_120784203_120707398_120630639_120553926_120477259_120400639_120324065_120247538_120171059_120094626_120018240_119941902_119865611_119789367_119713172_119637024_119560924_119484872_119408869_119332914_119257007_119181150_119105341_119029581_118953870_118878208_118802596_118727033_118651520_118576057_118500643_118425280_118349967_118274704_118199491_118124329_118049218_117974158_117899149_117824190_117749284_117674428_117599624_117524871_117450171_117375522_117300925_117226381_117151889_117077449_117003062_116928727_116854446_116780217_116706042_116631919_116557850_116483835_116409873_116335965_116262111_116188310_116114564_116040873_115967235_115893652_115820124_115746650_115673232_115599868_115526560_115453307_115380109_115306967_115233880_115160850_115087875_115014956_114942094_114869287_114796538_114723844_114651208_114578628_114506105_114433639_114361231_114288879_114216585_114144349_114072170_114000049_113927986_113855981_113784034_113712146_113640316_113568544_113496831_113425177_113353581_113282045_113210568_113139150_113067791_112996492_112925253_112854073_112782953_112711893_112640894_112569954_112499075_112428256_112357498_112286800_112216163_112145587_112075072_112004619_111934226_111863895_111793626_111723418_111653272_111583187_111513165_111443205_111373307_111303471_111233698_111163987_111094339_111024754_110955231_110885772_110816375_110747042_110677772_110608566_110539423_110470344_110401329_110332378_110263490_110194667_110125908_110057213_109988583_109920018_109851517_109783080_109714709_109646403_109578162_109509986_109441875_109373830_109305851_109237937_109170089_109102307_109034590_108966940_108899356_108831839_108764387_108697003_108629685_108562433_108495249_108428131_108361081_108294098_108227182_108160333_108093552_108026838_107960192_107893614_107827104_107760662_107694288_107627982_107561744_107495575_107429474_107363442_107297478_107231584_107165758_107100002_107034314_106968696_106903147_106837667_106772257_106706917_106641646_106576445_106511314_106446253_106381262_106316342,
  106251491_106186712_106122002_106057363_105992795_105928298_105863872_105799516_105735232_105671019_105606877_105542807_105478808_105414880_105351024_105287240_105223528_105159888_105096320_105032824_104969400_104906049_104842770_104779563_104716429_104653368_104590379_104527464_104464621_104401851_104339155_104276532_104213982_104151506_104089103_104026773_103964518_103902336_103840228_103778194_103716234_103654348_103592536_103530799_103469136_103407548_103346034_103284595_103223230_103161941_103100726_103039586_102978522_102917532_102856618_102795779_102735016_102674328_102613716_102553179_102492718_102432333_102372024_102311791_102251635_102191554_102131550_102071621_102011770_101951995_101892296_101832674_101773129_101713661_101654270_101594955_101535718_101476558_101417475_101358470_101299541_101240691_101181918_101123222_101064604_101006064_100947602_100889218_100830912_100772684_100714534_100656462_100598469_100540554_100482718_100424960_100367280_100309680_100252158_100194715_100137351_100080066_100022860_099965733_099908686_099851718_099794829_099738019_099681289_099624639_099568068_099511577_099455166_099398834_099342583_099286411_099230320_099174309_099118378_099062527_099006757_098951067_098895457_098839928_098784480_098729112_098673826_098618620_098563494_098508450_098453487_098398605_098343804_098289085_098234446_098179889_098125414_098071020_098016707_097962476_097908327_097854259_097800274_097746370_097692548_097638808_097585150_097531575_097478081_097424670_097371341_097318094_097264930_097211848_097158849_097105932_097053099_097000347_096947679_096895094_096842591_096790171_096737835_096685581_096633411_096581323_096529319_096477399_096425562_096373808_096322137_096270550_096219047_096167628_096116292_096065040_096013871_095962787_095911786_095860870_095810037_095759289_095708624_095658044_095607548_095557137_095506809_095456567_095406408_095356334_095306345_095256440_095206620_095156885_095107234_095057668_095008188_094958791_094909480_094860254_094811113_094762057_094713087_094664201_094615401_094566686_094518056_094469512_094421053_094372679_094324391_094276189_094228072_094180041_094132096_094084236_094036463_093988775_093941173_093893657_093846226_093798882_093751624_093704452_093657366_093610367_093563453_093516626_093469885_093423231_093376663_093330181_093283786_093237477_093191255_093145120_093099071_093053109_093007233_092961444_092915742_092870127_092824599_092779158_092733803_092688536_092643355_092598262_092553256_092508337_092463505_092418760_092374102_092329532_092285049_092240653,
  92196345_092152124_092107991_092063945_092019986_091976115_091932332_091888636_091845028_091801508_091758075_091714730_091671473_091628303_091585221_091542228_091499322_091456504_091413774_091371132_091328578_091286111_091243734_091201444_091159242_091117128_091075103_091033165_090991316_090949556_090907883_090866299_090824803_090783396_090742076_090700846_090659703_090618650_090577684_090536808_090496019_090455320_090414708_090374186_090333752_090293407_090253150_090212982_090172903_090132913_090093011_090053198_090013474_089973839_089934292_089894835_089855466_089816186_089776995_089737893_089698880_089659956_089621121_089582375_089543718_089505151_089466672_089428282_089389981_089351770_089313647_089275614_089237670_089199815_089162050_089124373_089086786_089049288_089011879_088974560_088937330_088900189_088863137_088826175_088789302_088752519_088715825_088679220_088642705_088606279_088569942_088533695_088497537_088461469_088425490_088389601_088353801_088318091_088282470_088246938_088211496_088176144_088140881_088105708_088070624_088035630_088000725_087965910_087931185_087896549_087862003_087827546_087793179_087758901_087724714_087690615_087656607_087622688_087588858_087555118_087521468_087487908_087454437_087421056_087387764_087354562_087321450_087288427_087255495_087222651_087189898_087157234_087124659_087092175_087059780_087027475_086995259_086963133_086931097_086899150_086867293_086835526_086803848_086772260_086740762_086709353_086678034_086646805_086615665_086584615_086553655_086522784_086492003_086461311_086430709_086400197_086369774_086339441_086309198_086279044_086248979_086219005_086189119_086159324_086129618_086100001_086070474_086041037_086011689_085982431_085953262_085924183_085895193_085866293_085837482_085808761_085780129_085751586_085723133_085694770_085666495_085638311_085610215_085582209_085554293_085526465_085498728_085471079_085443520_085416050_085388669_085361378_085334176_085307063_085280039_085253105_085226260_085199504_085172837_085146259_085119771_085093372_085067061_085040840_085014708_084988665_084962711_084936846_084911071_084885384_084859786_084834277_084808857_084783526_084758284_084733130_084708066_084683091_084658204_084633406_084608697_084584076_084559545_084535102_084510748_084486482_084462305_084438217_084414218_084390307_084366484_084342750_084319105_084295548_084272080_084248700_084225408_084202205_084179090_084156064_084133126_084110276_084087515_084064842_084042257_084019760_083997351_083975031_083952799_083930654_083908598_083886630_083864750_083842958_083821254_083799637,
  83778109_083756668_083735316_083714051_083692874_083671785_083650783_083629869_083609043_083588304_083567653_083547090_083526614_083506226_083485925_083465711_083445585_083425546_083405595_083385731_083365954_083346265_083326662_083307147_083287719_083268378_083249124_083229958_083210878_083191885_083172979_083154160_083135428_083116782_083098224_083079752_083061367_083043069_083024857_083006732_082988693_082970741_082952875_082935096_082917404_082899797_082882277_082864844_082847496_082830235_082813060_082795971_082778968_082762051_082745220_082728475_082711817_082695244_082678756_082662355_082646040_082629810_082613666_082597607_082581634_082565747_082549945_082534228_082518597_082503052_082487591_082472216_082456927_082441722_082426603_082411568_082396619_082381755_082366976_082352281_082337672_082323147_082308708_082294352_082280082_082265896_082251795_082237779_082223847_082209999_082196236_082182557_082168962_082155452_082142026_082128684_082115426_082102252_082089162_082076157_082063235_082050397_082037643_082024972_082012385_081999882_081987463_081975127_081962874_081950705_081938620_081926617_081914698_081902863_081891110_081879441_081867854_081856351_081844931_081833593_081822339_081811167_081800078_081789072_081778148_081767307_081756548_081745872_081735278_081724767_081714338_081703991_081693727_081683544_081673444_081663426_081653489_081643635_081633862_081624171_081614562_081605035_081595589_081586224_081576942_081567740_081558620_081549582_081540624_081531748_081522953_081514239_081505606_081497054_081488583_081480192_081471883_081463654_081455506_081447438_081439451_081431544_081423718_081415972_081408307_081400721_081393216_081385791_081378446_081371180_081363995_081356889_081349864_081342918_081336051_081329264_081322557_081315929_081309380_081302911_081296521_081290210_081283979_081277826_081271752_081265757_081259841_081254004_081248246_081242566_081236965_081231442_081225997_081220631_081215344_081210134_081205003_081199950_081194975_081190077_081185258_081180516_081175853_081171266_081166758_081162327_081157973_081153697_081149498_081145377_081141333_081137365_081133475_081129662_081125925_081122266_081118683_081115177_081111747_081108394_081105118_081101918_081098794_081095746_081092775_081089879_081087060_081084317_081081649_081079057_081076541_081074101_081071736_081069447_081067233_081065094_081063031_081061043_081059130_081057292_081055529_081053841_081052228_081050689_081049225_081047836_081046521_081045281_081044115_081043023_081042005_081041062_081040192_081039397_081038675_081038028,
  81037454_081036953_081036526_081036173_081035893_081035686_081035553_081035493_081035506_081035591_081035750_081035982_081036286_081036663_081037113_081037635_081038230_081038897_081039636_081040448_081041331_081042287_081043314_081044414_081045585_081046828_081048143_081049529_081050986_081052515_081054115_081055787_081057529_081059343_081061227_081063182_081065209_081067305_081069473_081071711_081074019_081076398_081078847_081081366_081083956_081086615_081089344_081092144_081095012_081097951_081100959_081104037_081107184_081110400_081113686_081117041_081120465_081123958_081127519_081131150_081134849_081138617_081142453_081146358_081150332_081154373_081158483_081162661_081166906_081171220_081175602_081180051_081184568_081189153_081193805_081198524_081203311_081208165_081213086_081218074_081223129_081228251_081233439_081238695_081244016_081249405_081254859_081260380_081265968_081271621_081277340_081283126_081288977_081294894_081300876_081306924_081313038_081319217_081325461_081331770_081338145_081344585_081351089_081357658_081364292_081370991_081377754_081384582_081391474_081398430_081405451_081412535_081419684_081426896_081434172_081441512_081448915_081456382_081463913_081471506_081479163_081486883_081494666_081502512_081510421_081518393_081526427_081534524_081542683_081550905_081559189_081567535_081575943_081584413_081592945_081601538_081610194_081618911_081627689_081636529_081645430_081654392_081663416_081672500_081681646_081690852_081700119_081709446_081718834_081728282_081737791_081747360_081756989_081766678_081776427_081786236_081796104_081806032_081816020_081826067_081836173_081846339_081856563_081866847_081877190_081887591_081898051_081908570_081919147_081929783_081940477_081951229_081962040_081972908_081983835_081994819_082005860_082016960_082028117_082039331_082050603_082061932_082073318_082084761_082096261_082107817_082119431_082131101_082142827_082154610_082166449_082178345_082190296_082202304_082214367_082226486_082238661_082250891_082263177_082275518_082287914_082300366_082312873_082325434_082338050_082350722_082363447_082376228_082389062_082401952_082414895_082427892_082440944_082454049_082467208_082480421_082493687_082507007_082520381_082533807_082547287_082560820_082574406_082588044_082601736_082615480_082629277_082643126_082657027_082670981_082684986_082699044_082713154_082727315_082741529_082755793_082770110_082784477_082798896_082813366_082827887_082842460_082857082_082871756_082886481_082901255_082916081_082930956_082945882_082960858_082975884_082990960_083006085_083021261_083036485_083051760,
  83067083_083082456_083097878_083113349_083128869_083144438_083160056_083175722_083191436_083207199_083223010_083238870_083254777_083270733_083286736_083302787_083318885_083335031_083351225_083367466_083383754_083400089_083416471_083432900_083449375_083465898_083482466_083499082_083515743_083532451_083549205_083566005_083582851_083599742_083616679_083633662_083650690_083667764_083684883_083702046_083719255_083736509_083753808_083771151_083788539_083805971_083823447_083840968_083858533_083876142_083893795_083911492_083929232_083947016_083964843_083982714_084000628_084018585_084036585_084054628_084072714_084090842_084109013_084127227_084145483_084163781_084182121_084200504_084218928_084237394_084255902_084274451_084293042_084311674_084330347_084349062_084367817_084386614_084405451_084424329_084443248_084462207_084481206_084500245_084519325_084538445_084557605_084576804_084596043_084615322_084634640_084653998_084673394_084692830_084712305_084731819_084751372_084770963_084790593_084810261_084829968_084849713_084869496_084889317_084909176_084929072_084949007_084968979_084988988_085009035_085029119_085049240_085069398_085089593_085109825_085130093_085150398_085170739_085191117_085211531_085231981_085252467_085272989_085293546_085314140_085334769_085355433_085376132_085396867_085417637_085438442_085459282_085480156_085501065_085522009_085542987_085563999_085585046_085606126_085627241_085648389_085669571_085690787_085712036_085733319_085754635_085775984_085797366_085818781_085840229_085861710_085883223_085904769_085926347_085947958_085969600_085991275_086012982_086034720_086056490_086078292_086100125_086121990_086143885_086165812_086187770_086209759_086231779_086253829_086275910_086298022_086320163_086342335_086364538_086386770_086409032_086431324_086453645_086475996_086498377_086520787_086543226_086565694_086588191_086610717_086633272_086655855_086678468_086701108_086723777_086746474_086769199_086791952_086814733_086837542_086860378_086883242_086906133_086929052_086951998_086974971_086997970_087020997_087044051_087067131_087090237_087113370_087136530_087159715_087182927_087206164_087229427_087252716_087276031_087299371_087322737_087346128_087369544_087392985_087416451_087439942_087463457_087486997_087510562_087534151_087557764_087581402_087605063_087628749_087652458_087676191_087699948_087723728_087747531_087771358_087795207_087819080_087842976_087866895_087890836_087914800_087938786_087962795_087986826_088010879_088034954_088059051_088083170_088107310_088131472_088155656_088179861_088204087_088228334_088252602_088276892,
  88301202_088325532_088349883_088374255_088398647_088423060_088447492_088471944_088496417_088520909_088545421_088569952_088594503_088619073_088643663_088668271_088692899_088717546_088742211_088766895_088791597_088816318_088841058_088865815_088890591_088915385_088940197_088965026_088989873_089014738_089039620_089064520_089089437_089114371_089139322_089164289_089189274_089214276_089239294_089264328_089289379_089314446_089339529_089364628_089389744_089414875_089440021_089465184_089490361_089515555_089540763_089565987_089591225_089616479_089641747_089667030_089692328_089717640_089742967_089768308_089793663_089819032_089844415_089869812_089895223_089920647_089946085_089971536_089997001_090022479_090047969_090073473_090098990_090124519_090150061_090175616_090201183_090226763_090252354_090277958_090303574_090329201_090354841_090380492_090406155_090431829_090457514_090483211_090508919_090534638_090560368_090586108_090611860_090637622_090663394_090689177_090714970_090740774_090766587_090792411_090818244_090844087_090869940_090895802_090921673_090947554_090973444_090999344_091025252_091051169_091077095_091103030_091128973_091154925_091180885_091206853_091232830_091258814_091284807_091310807_091336815_091362831_091388854_091414884_091440922_091466968_091493020_091519079_091545145_091571218_091597298_091623384_091649477_091675576_091701681_091727793_091753910_091780034_091806163_091832298_091858439_091884585_091910737_091936894_091963056_091989224_092015396_092041573_092067756_092093942_092120134_092146330_092172530_092198735_092224944_092251157_092277374_092303594_092329819_092356047_092382279_092408514_092434753_092460995_092487240_092513488_092539740_092565994_092592251_092618510_092644772_092671037_092697303_092723572_092749844_092776117_092802392_092828669_092854948_092881229_092907511_092933794_092960079_092986365_093012652_093038941_093065230_093091520_093117811_093144102_093170394_093196687_093222980_093249273_093275566_093301859_093328152_093354445_093380738_093407031_093433323_093459614_093485905_093512195_093538484_093564772_093591060_093617346_093643631_093669914_093696196_093722477_093748756_093775033_093801308_093827582_093853853_093880123_093906390_093932655_093958917_093985177_094011434_094037689_094063941_094090190_094116436_094142678_094168918_094195155_094221388_094247617_094273843_094300066_094326284_094352499_094378710_094404916_094431119_094457318_094483512_094509701_094535886_094562067_094588243_094614414_094640580_094666741_094692897_094719048_094745194_094771334_094797469_094823598_094849722_094875839,
  94901951_094928058_094954158_094980252_095006339_095032421_095058496_095084565_095110627_095136682_095162731_095188772_095214807_095240835_095266856_095292869_095318875_095344874_095370865_095396849_095422825_095448793_095474754_095500706_095526650_095552587_095578515_095604434_095630346_095656248_095682143_095708028_095733905_095759773_095785632_095811482_095837323_095863155_095888977_095914790_095940594_095966388_095992172_096017946_096043711_096069466_096095211_096120946_096146670_096172384_096198088_096223782_096249465_096275137_096300799_096326450_096352090_096377719_096403336_096428943_096454539_096480123_096505696_096531257_096556807_096582345_096607872_096633386_096658889_096684380_096709858_096735325_096760779_096786221_096811650_096837067_096862471_096887863_096913242_096938608_096963961_096989301_097014628_097039941_097065242_097090529_097115803_097141063_097166310_097191543_097216762_097241967_097267158_097292336_097317499_097342648_097367783_097392904_097418010_097443101_097468178_097493241_097518288_097543321_097568339_097593342_097618329_097643302_097668259_097693202_097718128_097743039_097767935_097792815_097817679_097842528_097867361_097892177_097916978_097941763_097966531_097991283_098016019_098040738_098065441_098090127_098114797_098139450_098164086_098188705_098213307_098237892_098262460_098287011_098311545_098336061_098360559_098385041_098409504_098433950_098458378_098482789_098507181_098531556_098555913_098580251_098604571_098628873_098653157_098677422_098701669_098725897_098750106_098774297_098798469_098822622_098846756_098870871_098894967_098919044_098943102_098967140_098991159_099015159_099039138_099063099_099087040_099110961_099134862_099158743_099182604_099206445_099230267_099254067_099277848_099301609_099325349_099349068_099372767_099396445_099420103_099443740_099467356_099490952_099514526_099538079_099561611_099585122_099608612_099632080_099655528_099678953_099702357_099725740_099749101_099772440_099795757_099819053_099842326_099865578_099888807_099912015_099935200_099958363_099981504_100004622_100027718_100050791_100073841_100096869_100119875_100142857_100165817_100188753_100211667_100234557_100257425_100280269_100303090_100325888_100348662_100371413_100394140_100416844_100439524_100462180_100484813_100507421_100530006_100552567_100575104_100597617_100620105_100642570_100665010_100687425_100709817_100732184_100754526_100776844_100799137_100821405_100843649_100865867_100888061_100910230_100932374_100954493_100976586_100998655_101020698_101042715_101064708_101086675_101108616_101130532,
  101152422_101174287_101196126_101217939_101239726_101261487_101283222_101304931_101326614_101348271_101369902_101391506_101413084_101434636_101456161_101477660_101499132_101520578_101541996_101563389_101584754_101606092_101627404_101648689_101669946_101691177_101712380_101733556_101754705_101775827_101796921_101817988_101839028_101860040_101881024_101901981_101922910_101943811_101964685_101985530_102006348_102027138_102047900_102068634_102089340_102110017_102130667_102151288_102171881_102192445_102212981_102233489_102253968_102274418_102294840_102315233_102335597_102355933_102376240_102396518_102416767_102436987_102457178_102477339_102497472_102517576_102537650_102557695_102577711_102597697_102617654_102637582_102657480_102677348_102697187_102716996_102736775_102756525_102776244_102795934_102815594_102835224_102854824_102874394_102893934_102913444_102932923_102952373_102971792_102991180_103010539_103029867_103049164_103068431_103087667_103106873_103126048_103145193_103164306_103183389_103202441_103221463_103240453_103259412_103278341_103297238_103316104_103334939_103353743_103372516_103391257_103409967_103428646_103447294_103465910_103484494_103503047_103521569_103540058_103558517_103576943_103595338_103613701_103632032_103650332_103668599_103686835_103705039_103723210_103741350_103759457_103777533_103795576_103813587_103831566_103849513_103867427_103885309_103903158_103920975_103938760_103956512_103974232_103991919_104009573_104027195_104044784_104062340_104079863_104097354_104114812_104132237_104149629_104166988_104184314_104201608_104218868_104236095_104253289_104270449_104287577_104304671_104321732_104338760_104355754_104372715_104389643_104406537_104423398_104440225_104457019_104473779_104490505_104507198_104523858_104540483_104557075_104573633_104590157_104606648_104623104_104639527_104655916_104672270_104688591_104704878_104721131_104737350_104753534_104769685_104785801_104801883_104817931_104833944_104849924_104865869_104881779_104897656_104913497_104929305_104945078_104960816_104976520_104992190_105007825_105023425_105038991_105054522_105070018_105085479_105100906_105116298_105131656_105146978_105162266_105177519_105192736_105207919_105223067_105238180_105253258_105268301_105283309_105298282_105313220_105328123_105342990_105357823_105372620_105387382_105402109_105416800_105431456_105446077_105460662_105475213_105489727_105504207_105518651_105533059_105547432_105561769_105576071_105590338_105604569_105618764_105632924_105647048_105661136_105675189_105689206_105703187_105717133_105731043_105744917_105758755,
  105772558_105786324_105800055_105813750_105827409_105841032_105854620_105868171_105881686_105895166_105908609_105922016_105935388_105948723_105962022_105975285_105988512_106001703_106014858_106027976_106041059_106054105_106067115_106080089_106093026_106105927_106118792_106131621_106144414_106157170_106169889_106182573_106195220_106207831_106220405_106232943_106245444_106257909_106270338_106282730_106295086_106307405_106319687_106331933_106344143_106356316_106368453_106380553_106392616_106404643_106416633_106428586_106440503_106452384_106464227_106476034_106487804_106499538_106511235_106522895_106534519_106546105_106557655_106569169_106580645_106592085_106603488_106614854_106626183_106637476_106648732_106659951_106671133_106682278_106693386_106704458_106715492_106726490_106737451_106748375_106759262_106770112_106780926_106791702_106802442_106813144_106823810_106834438_106845030_106855585_106866102_106876583_106887027_106897434_106907803_106918136_106928432_106938691_106948913_106959097_106969245_106979356_106989430_106999466_107009466_107019428_107029354_107039242_107049094_107058908_107068686_107078426_107088129_107097795_107107424_107117016_107126571_107136089_107145570_107155013_107164420_107173789_107183122_107192417_107201675_107210896_107220080_107229227_107238337_107247410_107256445_107265444_107274405_107283330_107292217_107301067_107309880_107318656_107327395_107336097_107344762_107353389_107361980_107370533_107379050_107387529_107395971_107404376_107412745_107421076_107429369_107437626_107445846_107454029_107462174_107470283_107478355_107486389_107494387_107502347_107510270_107518157_107526006_107533818_107541594_107549332_107557033_107564697_107572325_107579915_107587468_107594984_107602464_107609906_107617311_107624680_107632011_107639305_107646563_107653784_107660967_107668114_107675224_107682297_107689333_107696332_107703294_107710219_107717108_107723959_107730774_107737552_107744293_107750997_107757665_107764295_107770889_107777446_107783966_107790450_107796896_107803306_107809680_107816016_107822316_107828579_107834805_107840994_107847147_107853264_107859343_107865386_107871392_107877362_107883295_107889191_107895051_107900874_107906661_107912411_107918124_107923801_107929442_107935046_107940613_107946144_107951638_107957096_107962518_107967903_107973252_107978564_107983840_107989079_107994282_107999449_108004579_108009673_108014731_108019753_108024738_108029687_108034600_108039476_108044316_108049120_108053888_108058620_108063315_108067974_108072598_108077185_108081736_108086251_108090729_108095172,
  108099579_108103950_108108285_108112583_108116846_108121073_108125264_108129419_108133538_108137621_108141669_108145680_108149656_108153596_108157500_108161369_108165201_108168998_108172759_108176485_108180175_108183829_108187447_108191030_108194578_108198090_108201566_108205006_108208412_108211781_108215116_108218414_108221678_108224906_108228098_108231255_108234377_108237464_108240515_108243531_108246511_108249457_108252367_108255242_108258082_108260886_108263656_108266390_108269090_108271754_108274383_108276977_108279537_108282061_108284550_108287004_108289424_108291809_108294158_108296473_108298753_108300999_108303209_108305385_108307526_108309633_108311704_108313742_108315744_108317712_108319645_108321544_108323409_108325238_108327034_108328795_108330521_108332214_108333871_108335495_108337084_108338639_108340160_108341646_108343098_108344516_108345900_108347250_108348566_108349847_108351095_108352309_108353488_108354634_108355746_108356824_108357868_108358878_108359854_108360796_108361705_108362580_108363422_108364229_108365003_108365744_108366451_108367124_108367764_108368370_108368943_108369482_108369988_108370460_108370900_108371306_108371678_108372018_108372324_108372597_108372836_108373043_108373216_108373357_108373464_108373539_108373580_108373588_108373564_108373506_108373416_108373293_108373137_108372949_108372727_108372473_108372187_108371867_108371515_108371131_108370714_108370264_108369782_108369268_108368721_108368141_108367530_108366886_108366210_108365501_108364761_108363988_108363183_108362346_108361477_108360575_108359642_108358677_108357680_108356651_108355590_108354498_108353373_108352217_108351029_108349809_108348558_108347275_108345960_108344614_108343237_108341827_108340387_108338915_108337412_108335877_108334311_108332714_108331085_108329426_108327735_108326013_108324260_108322476_108320660_108318814_108316937_108315029_108313091_108311121_108309121_108307089_108305027_108302935_108300812_108298658_108296473_108294258_108292013_108289737_108287431_108285094_108282727_108280330_108277902_108275445_108272957_108270438_108267890_108265312_108262704_108260065_108257397_108254699_108251971_108249213_108246425_108243608_108240760_108237883_108234977_108232041_108229075_108226080_108223055_108220001_108216918_108213805_108210663_108207491_108204291_108201061_108197802_108194514_108191196_108187850_108184475_108181071_108177638_108174176_108170685_108167165_108163617_108160040_108156434_108152800_108149137_108145446_108141726_108137977_108134200_108130395_108126562_108122700_108118810_108114892,
  108110946_108106971_108102968_108098938_108094879_108090793_108086678_108082536_108078366_108074168_108069943_108065689_108061409_108057100_108052764_108048400_108044009_108039591_108035145_108030672_108026172_108021644_108017089_108012507_108007898_108003261_107998598_107993908_107989191_107984447_107979676_107974878_107970053_107965202_107960324_107955420_107950489_107945531_107940547_107935537_107930500_107925436_107920347_107915231_107910089_107904920_107899726_107894505_107889259_107883986_107878688_107873364_107868013_107862637_107857236_107851808_107846355_107840876_107835372_107829842_107824287_107818706_107813100_107807468_107801812_107796130_107790422_107784690_107778932_107773150_107767342_107761510_107755652_107749770_107743863_107737931_107731974_107725993_107719987_107713956_107707901_107701821_107695717_107689589_107683436_107677259_107671058_107664832_107658582_107652309_107646011_107639689_107633343_107626973_107620580_107614162_107607721_107601256_107594767_107588255_107581719_107575160_107568577_107561971_107555341_107548688_107542012_107535312_107528590_107521844_107515075_107508283_107501468_107494630_107487770_107480886_107473980_107467050_107460099_107453124_107446127_107439107_107432065_107425001_107417914_107410805_107403673_107396519_107389343_107382145_107374925_107367683_107360418_107353132_107345824_107338494_107331142_107323769_107316374_107308957_107301518_107294059_107286577_107279074_107271550_107264004_107256437_107248849_107241240_107233610_107225958_107218285_107210592_107202877_107195142_107187386_107179609_107171811_107163993_107156154_107148294_107140414_107132514_107124593_107116651_107108690_107100708_107092706_107084683_107076641_107068578_107060496_107052393_107044271_107036129_107027967_107019785_107011584_107003363_106995122_106986862_106978582_106970283_106961964_106953627_106945270_106936893_106928498_106920083_106911649_106903196_106894725_106886234_106877725_106869196_106860649_106852083_106843499_106834896_106826274_106817634_106808976_106800299_106791604_106782890_106774158_106765408_106756640_106747854_106739050_106730228_106721388_106712530_106703654_106694761_106685849_106676920_106667974_106659010_106650029_106641030_106632013_106622980_106613929_106604860_106595775_106586673_106577553_106568417_106559263_106550093_106540905_106531701_106522480_106513243_106503989_106494718_106485431_106476127_106466807_106457470_106448117_106438748_106429362_106419961_106410543_106401109_106391660_106382194_106372712_106363215_106353702_106344173_106334628_106325068_106315492,
  106305901_106296294_106286672_106277034_106267381_106257713_106248030_106238331_106228617_106218889_106209145_106199387_106189613_106179825_106170022_106160204_106150372_106140525_106130663_106120787_106110897_106100992_106091072_106081139_106071191_106061229_106051253_106041263_106031259_106021241_106011209_106001163_105991103_105981030_105970943_105960842_105950728_105940600_105930459_105920304_105910136_105899954_105889760_105879552_105869331_105859097_105848850_105838589_105828316_105818030_105807731_105797420_105787096_105776759_105766409_105756047_105745672_105735285_105724886_105714474_105704050_105693613_105683165_105672704_105662232_105651747_105641250_105630742_105620221_105609689_105599145_105588589_105578022_105567443_105556852_105546250_105535637_105525012_105514376_105503729_105493071_105482401_105471720_105461028_105450325_105439612_105428887_105418152_105407405_105396649_105385881_105375103_105364314_105353515_105342705_105331885_105321054_105310214_105299363_105288501_105277630_105266749_105255857_105244956_105234045_105223124_105212193_105201252_105190301_105179341_105168372_105157393_105146404_105135406_105124399_105113382_105102356_105091320_105080276_105069223_105058160_105047088_105036008_105024918_105013820_105002713_104991597_104980473_104969340_104958198_104947048_104935890_104924723_104913547_104902364_104891172_104879971_104868763_104857547_104846322_104835090_104823850_104812602_104801346_104790082_104778810_104767531_104756244_104744950_104733648_104722339_104711022_104699698_104688367_104677029_104665683_104654330_104642970_104631603_104620229_104608848_104597461_104586066_104574665_104563257_104551842_104540421_104528993_104517559_104506118_104494671_104483218_104471758_104460292_104448820_104437341_104425857_104414367_104402870_104391368_104379860_104368346_104356826_104345301_104333770_104322233_104310691_104299143_104287590_104276032_104264468_104252899_104241324_104229745_104218160_104206570_104194975_104183376_104171771_104160161_104148547_104136928_104125304_104113675_104102042_104090404_104078762_104067116_104055464_104043809_104032149_104020485_104008817_103997145_103985468_103973788_103962104_103950415_103938723_103927027_103915327_103903623_103891916_103880205_103868491_103856772_103845051_103833326_103821598_103809866_103798131_103786393_103774652_103762907_103751160_103739409_103727656_103715899_103704140_103692378_103680613_103668846_103657075_103645303_103633527_103621749_103609969_103598186_103586401_103574614_103562824_103551032_103539238_103527442_103515644_103503843,
  103492041_103480237_103468431_103456623_103444814_103433003_103421190_103409375_103397559_103385742_103373923_103362102_103350280_103338457_103326633_103314807_103302981_103291153_103279324_103267494_103255663_103243831_103231999_103220165_103208331_103196496_103184660_103172824_103160987_103149150_103137312_103125474_103113635_103101797_103089957_103078118_103066278_103054439_103042599_103030759_103018919_103007079_102995240_102983400_102971561_102959722_102947883_102936045_102924207_102912369_102900532_102888696_102876860_102865024_102853190_102841356_102829523_102817691_102805859_102794029_102782199_102770371_102758544_102746717_102734892_102723068_102711246_102699424_102687604_102675786_102663969_102652153_102640339_102628526_102616716_102604906_102593099_102581293_102569489_102557687_102545887_102534089_102522293_102510499_102498707_102486917_102475129_102463344_102451561_102439780_102428002_102416226_102404452_102392681_102380913_102369147_102357383_102345623_102333865_102322110_102310358_102298609_102286862_102275119_102263379_102251641_102239907_102228176_102216448_102204723_102193002_102181284_102169569_102157858_102146150_102134446_102122745_102111048_102099355_102087665_102075979_102064297_102052618_102040944_102029273_102017606_102005943_101994285_101982630_101970979_101959333_101947691_101936053_101924419_101912790_101901165_101889545_101877929_101866317_101854711_101843108_101831511_101819918_101808329_101796746_101785167_101773594_101762025_101750461_101738902_101727348_101715799_101704256_101692717_101681184_101669656_101658133_101646615_101635103_101623596_101612095_101600599_101589109_101577625_101566146_101554672_101543205_101531743_101520287_101508836_101497392_101485953_101474521_101463094_101451674_101440259_101428851_101417449_101406053_101394663_101383279_101371902_101360531_101349167_101337809_101326458_101315113_101303774_101292442_101281117_101269799_101258487_101247182_101235884_101224593_101213308_101202031_101190760_101179496_101168240_101156990_101145748_101134513_101123285_101112064_101100851_101089644_101078446_101067254_101056070_101044894_101033725_101022563_101011409_101000263_100989124_100977993_100966870_100955755_100944647_100933547_100922456_100911372_100900296_100889228_100878168_100867116_100856072_100845037_100834009_100822990_100811979_100800976_100789982_100778996_100768019_100757050_100746089_100735137_100724194_100713259_100702333_100691415_100680506_100669606_100658715_100647832_100636959_100626094_100615238_100604391_100593553_100582724_100571904_100561094_100550292,
  100539500_100528716_100517942_100507178_100496422_100485676_100474940_100464212_100453495_100442786_100432088_100421398_100410719_100400049_100389388_100378738_100368097_100357466_100346844_100336233_100325631_100315039_100304458_100293886_100283324_100272772_100262230_100251699_100241177_100230666_100220165_100209674_100199193_100188723_100178263_100167813_100157374_100146945_100136526_100126119_100115721_100105334_100094958_100084593_100074238_100063894_100053560_100043237_100032925_100022624_100012334_100002055_099991786_099981529_099971282_099961046_099950822_099940608_099930406_099920215_099910035_099899866_099889708_099879562_099869427_099859303_099849191_099839089_099829000_099818922_099808855_099798800_099788756_099778724_099768703_099758694_099748697_099738711_099728737_099718775_099708825_099698886_099688959_099679044_099669141_099659250_099649371_099639504_099629648_099619805_099609974_099600155_099590348_099580553_099570770_099561000_099551242_099541496_099531762_099522041_099512332_099502635_099492951_099483279_099473619_099463972_099454338_099444716_099435106_099425510_099415926_099406354_099396795_099387249_099377715_099368195_099358687_099349192_099339709_099330240_099320783_099311340_099301909_099292491_099283086_099273694_099264316_099254950_099245597_099236258_099226931_099217618_099208318_099199031_099189758_099180497_099171250_099162017_099152796_099143589_099134396_099125215_099116049_099106895_099097755_099088629_099079516_099070417_099061331_099052259_099043201_099034156_099025125_099016107_099007104_098998114_098989138_098980175_098971227_098962292_098953371_098944464_098935571_098926692_098917827_098908975_098900138_098891315_098882506_098873711_098864930_098856163_098847410_098838671_098829947_098821237_098812541_098803859_098795191_098786538_098777899_098769275_098760664_098752068_098743487_098734920_098726367_098717829_098709305_098700796_098692301_098683821_098675356_098666904_098658468_098650046_098641639_098633246_098624869_098616505_098608157_098599823_098591504_098583200_098574911_098566636_098558376_098550131_098541901_098533686_098525486_098517301_098509130_098500975_098492835_098484709_098476599_098468503_098460423_098452358_098444308_098436273_098428253_098420248_098412259_098404284_098396325_098388381_098380453_098372539_098364641_098356758_098348890_098341038_098333201_098325380_098317573_098309783_098302007_098294247_098286503_098278773_098271060_098263362_098255679_098248012_098240360_098232724_098225104_098217499_098209910_098202336_098194778_098187236_098179709_098172198,
  98164703_098157223_098149759_098142311_098134878_098127462_098120061_098112676_098105306_098097953_098090615_098083294_098075988_098068698_098061423_098054165_098046923_098039697_098032486_098025292_098018113_098010951_098003804_097996674_097989559_097982461_097975379_097968312_097961262_097954228_097947210_097940208_097933223_097926253_097919300_097912362_097905441_097898537_097891648_097884775_097877919_097871079_097864256_097857448_097850657_097843882_097837123_097830381_097823655_097816946_097810252_097803575_097796915_097790271_097783643_097777032_097770437_097763858_097757296_097750750_097744221_097737708_097731212_097724732_097718269_097711822_097705392_097698978_097692581_097686200_097679836_097673488_097667157_097660843_097654545_097648264_097641999_097635751_097629519_097623304_097617106_097610925_097604760_097598612_097592480_097586365_097580267_097574186_097568121_097562073_097556042_097550027_097544029_097538048_097532084_097526136_097520205_097514291_097508394_097502513_097496650_097490803_097484973_097479159_097473363_097467583_097461821_097456075_097450346_097444633_097438938_097433259_097427598_097421953_097416325_097410714_097405120_097399543_097393983_097388439_097382913_097377403_097371911_097366435_097360976_097355535_097350110_097344702_097339311_097333937_097328580_097323240_097317917_097312611_097307322_097302050_097296795_097291557_097286336_097281132_097275945_097270775_097265622_097260486_097255367_097250265_097245180_097240112_097235062_097230028_097225011_097220011_097215029_097210063_097205115_097200183_097195269_097190372_097185491_097180628_097175782_097170953_097166141_097161346_097156569_097151808_097147064_097142338_097137628_097132936_097128261_097123603_097118962_097114338_097109731_097105141_097100568_097096013_097091474_097086953_097082449_097077962_097073492_097069039_097064603_097060184_097055783_097051398_097047031_097042681_097038347_097034031_097029732_097025451_097021186_097016938_097012708_097008494_097004298_097000119_096995957_096991812_096987684_096983573_096979479_096975403_096971343_096967301_096963276_096959267_096955276_096951302_096947345_096943406_096939483_096935577_096931689_096927817_096923963_096920125_096916305_096912502_096908716_096904947_096901195_096897460_096893742_096890042_096886358_096882691_096879042_096875409_096871793_096868195_096864614_096861049_096857502_096853971_096850458_096846962_096843483_096840020_096836575_096833147_096829736_096826341_096822964_096819604_096816261_096812934_096809625_096806333_096803057_096799799_096796558_096793333,
  96790126_096786935_096783761_096780605_096777465_096774342_096771236_096768147_096765075_096762020_096758982_096755960_096752956_096749968_096746997_096744044_096741107_096738187_096735283_096732397_096729527_096726675_096723839_096721020_096718217_096715432_096712663_096709911_096707176_096704458_096701757_096699072_096696404_096693753_096691118_096688500_096685900_096683315_096680748_096678197_096675663_096673146_096670645_096668161_096665693_096663243_096660809_096658391_096655991_096653607_096651239_096648888_096646554_096644237_096641936_096639651_096637383_096635132_096632897_096630679_096628478_096626293_096624124_096621972_096619837_096617718_096615615_096613529_096611459_096609406_096607370_096605350_096603346_096601358_096599388_096597433_096595495_096593573_096591668_096589779_096587906_096586050_096584210_096582387_096580579_096578788_096577014_096575255_096573513_096571787_096570078_096568384_096566707_096565046_096563401_096561773_096560161_096558565_096556985_096555421_096553873_096552342_096550826_096549327_096547844_096546377_096544926_096543491_096542072_096540669_096539282_096537911_096536556_096535218_096533895_096532588_096531297_096530022_096528763_096527520_096526293_096525081_096523886_096522706_096521543_096520395_096519263_096518147_096517046_096515962_096514893_096513840_096512802_096511781_096510775_096509785_096508811_096507852_096506909_096505981_096505070_096504174_096503293_096502428_096501579_096500745_096499927_096499125_096498338_096497566_096496810_096496070_096495344_096494635_096493941_096493262_096492599_096491951_096491319_096490702_096490100_096489514_096488943_096488387_096487846_096487321_096486812_096486317_096485838_096485374_096484925_096484491_096484073_096483669_096483281_096482908_096482550_096482208_096481880_096481567_096481270_096480987_096480720_096480468_096480230_096480008_096479800_096479608_096479430_096479267_096479120_096478987_096478869_096478765_096478677_096478604_096478545_096478501_096478472_096478458_096478458_096478473_096478503_096478547_096478606_096478680_096478769_096478872_096478989_096479121_096479268_096479430_096479606_096479796_096480001_096480220_096480454_096480702_096480965_096481242_096481534_096481840_096482160_096482495_096482844_096483207_096483584_096483976_096484382_096484802_096485237_096485686_096486149_096486626_096487117_096487622_096488142_096488675_096489223_096489784_096490360_096490950_096491553_096492171_096492802_096493448_096494107_096494781_096495468_096496169_096496884_096497613_096498355_096499112_096499882_096500666,
  96501464_096502275_096503100_096503939_096504791_096505657_096506536_096507430_096508336_096509257_096510191_096511138_096512099_096513073_096514061_096515062_096516077_096517105_096518146_096519201_096520269_096521351_096522445_096523553_096524675_096525809_096526957_096528118_096529292_096530479_096531680_096532893_096534120_096535359_096536612_096537878_096539156_096540448_096541753_096543071_096544401_096545745_096547101_096548470_096549852_096551247_096552655_096554076_096555509_096556955_096558414_096559885_096561369_096562866_096564375_096565897_096567432_096568979_096570539_096572111_096573696_096575293_096576902_096578525_096580159_096581806_096583465_096585137_096586821_096588517_096590226_096591947_096593680_096595425_096597183_096598952_096600734_096602528_096604334_096606153_096607983_096609825_096611679_096613546_096615424_096617314_096619217_096621131_096623057_096624994_096626944_096628906_096630879_096632864_096634861_096636870_096638890_096640922_096642966_096645021_096647088_096649166_096651256_096653358_096655471_096657596_096659732_096661879_096664038_096666209_096668391_096670584_096672788_096675004_096677231_096679470_096681719_096683980_096686252_096688536_096690830_096693136_096695452_096697780_096700119_096702469_096704830_096707202_096709584_096711978_096714383_096716799_096719225_096721662_096724111_096726570_096729039_096731520_096734011_096736513_096739026_096741549_096744083_096746627_096749182_096751748_096754324_096756911_096759508_096762116_096764734_096767363_096770002_096772651_096775311_096777981_096780661_096783352_096786053_096788764_096791485_096794216_096796958_096799710_096802472_096805244_096808025_096810818_096813620_096816432_096819254_096822085_096824927_096827779_096830640_096833512_096836393_096839284_096842185_096845095_096848016_096850945_096853885_096856834_096859793_096862761_096865739_096868727_096871724_096874731_096877747_096880772_096883807_096886851_096889905_096892968_096896040_096899121_096902212_096905312_096908422_096911540_096914668_096917804_096920950_096924105_096927269_096930442_096933624_096936816_096940016_096943225_096946443_096949669_096952905_096956150_096959403_096962665_096965936_096969215_096972504_096975801_096979107_096982421_096985744_096989075_096992415_096995764_096999121_097002487_097005861_097009243_097012634_097016033_097019441_097022857_097026281_097029714_097033155_097036604_097040061_097043526_097047000_097050482_097053972_097057470_097060975_097064489_097068011_097071541_097075079_097078625_097082179_097085740_097089310_097092887,
  97096472_097100065_097103665_097107274_097110890_097114513_097118145_097121784_097125430_097129084_097132746_097136415_097140091_097143775_097147467_097151166_097154872_097158586_097162306_097166035_097169770_097173513_097177263_097181020_097184785_097188556_097192335_097196121_097199913_097203713_097207520_097211334_097215155_097218983_097222817_097226659_097230508_097234363_097238225_097242094_097245970_097249852_097253741_097257637_097261539_097265448_097269364_097273286_097277215_097281151_097285092_097289041_097292996_097296957_097300924_097304898_097308879_097312865_097316858_097320857_097324863_097328875_097332892_097336916_097340947_097344983_097349025_097353074_097357128_097361188_097365255_097369327_097373406_097377490_097381580_097385676_097389778_097393885_097397999_097402118_097406243_097410373_097414509_097418651_097422799_097426952_097431110_097435274_097439444_097443619_097447800_097451986_097456177_097460374_097464576_097468784_097472997_097477215_097481438_097485667_097489901_097494140_097498384_097502633_097506888_097511147_097515412_097519681_097523956_097528235_097532519_097536809_097541103_097545402_097549706_097554015_097558328_097562647_097566970_097571298_097575630_097579967_097584309_097588655_097593006_097597362_097601722_097606086_097610455_097614829_097619207_097623589_097627975_097632366_097636762_097641161_097645565_097649974_097654386_097658803_097663223_097667648_097672077_097676510_097680947_097685389_097689834_097694283_097698736_097703193_097707655_097712119_097716588_097721061_097725537_097730018_097734502_097738989_097743481_097747976_097752475_097756977_097761483_097765993_097770506_097775023_097779543_097784066_097788594_097793124_097797658_097802196_097806736_097811280_097815828_097820378_097824932_097829489_097834050_097838613_097843180_097847749_097852322_097856898_097861477_097866059_097870644_097875232_097879823_097884417_097889014_097893614_097898216_097902821_097907429_097912040_097916654_097921270_097925889_097930511_097935136_097939763_097944392_097949024_097953659_097958296_097962936_097967578_097972223_097976870_097981520_097986172_097990826_097995482_098000141_098004803_098009466_098014132_098018799_098023469_098028142_098032816_098037492_098042171_098046851_098051534_098056218_098060905_098065594_098070284_098074976_098079671_098084367_098089065_098093764_098098466_098103169_098107874_098112581_098117289_098121999_098126711_098131425_098136140_098140856_098145574_098150294_098155015_098159737_098164461_098169187_098173913_098178642_098183371_098188102_098192834,
  98197568_098202302_098207038_098211775_098216514_098221253_098225994_098230736_098235478_098240222_098244967_098249713_098254460_098259208_098263957_098268707_098273457_098278209_098282961_098287714_098292468_098297223_098301979_098306735_098311492_098316250_098321008_098325767_098330527_098335287_098340048_098344809_098349571_098354333_098359096_098363859_098368623_098373387_098378151_098382916_098387681_098392447_098397213_098401979_098406745_098411512_098416278_098421045_098425812_098430579_098435347_098440114_098444882_098449649_098454417_098459184_098463952_098468719_098473486_098478254_098483021_098487788_098492555_098497321_098502088_098506854_098511620_098516386_098521151_098525916_098530681_098535445_098540209_098544973_098549736_098554498_098559261_098564022_098568783_098573544_098578304_098583064_098587823_098592581_098597338_098602095_098606852_098611607_098616362_098621116_098625869_098630622_098635373_098640124_098644874_098649623_098654371_098659118_098663864_098668609_098673354_098678097_098682839_098687580_098692320_098697059_098701797_098706533_098711269_098716003_098720736_098725468_098730199_098734928_098739656_098744383_098749108_098753832_098758555_098763276_098767996_098772714_098777431_098782146_098786860_098791572_098796283_098800993_098805700_098810406_098815111_098819814_098824515_098829214_098833912_098838608_098843302_098847994_098852685_098857374_098862061_098866746_098871430_098876111_098880790_098885468_098890144_098894817_098899489_098904159_098908826_098913492_098918155_098922817_098927476_098932133_098936788_098941441_098946092_098950740_098955386_098960030_098964672_098969311_098973948_098978583_098983215_098987845_098992473_098997098_099001721_099006342_099010960_099015575_099020188_099024798_099029406_099034012_099038614_099043214_099047812_099052407_099056999_099061589_099066176_099070760_099075341_099079920_099084496_099089069_099093640_099098207_099102772_099107334_099111893_099116449_099121002_099125552_099130100_099134644_099139185_099143724_099148259_099152791_099157320_099161847_099166370_099170890_099175406_099179920_099184431_099188938_099193442_099197943_099202441_099206935_099211426_099215914_099220399_099224880_099229358_099233832_099238304_099242771_099247236_099251697_099256154_099260608_099265059_099269506_099273949_099278389_099282826_099287259_099291688_099296114_099300536_099304954_099309369_099313780_099318188_099322592_099326992_099331388_099335781_099340170_099344555_099348936_099353313_099357687_099362057_099366423_099370785_099375143_099379497_099383847,
  99388193_099392536_099396874_099401209_099405539_099409865_099414188_099418506_099422820_099427130_099431436_099435738_099440036_099444330_099448619_099452904_099457185_099461462_099465735_099470003_099474267_099478527_099482783_099487034_099491281_099495524_099499762_099503996_099508225_099512450_099516671_099520887_099525099_099529307_099533510_099537708_099541902_099546091_099550276_099554457_099558632_099562804_099566970_099571132_099575290_099579443_099583591_099587734_099591873_099596007_099600137_099604262_099608382_099612497_099616607_099620713_099624814_099628910_099633002_099637088_099641170_099645247_099649319_099653386_099657448_099661505_099665558_099669605_099673648_099677685_099681718_099685745_099689768_099693785_099697798_099701805_099705808_099709805_099713798_099717785_099721767_099725744_099729716_099733682_099737644_099741600_099745552_099749498_099753438_099757374_099761304_099765230_099769149_099773064_099776973_099780877_099784776_099788669_099792558_099796440_099800318_099804190_099808056_099811918_099815773_099819624_099823469_099827308_099831143_099834971_099838794_099842612_099846424_099850231_099854032_099857828_099861618_099865403_099869182_099872955_099876723_099880485_099884242_099887993_099891738_099895478_099899212_099902940_099906663_099910380_099914091_099917797_099921497_099925191_099928880_099932562_099936239_099939911_099943576_099947236_099950889_099954537_099958180_099961816_099965446_099969071_099972690_099976303_099979910_099983511_099987106_099990696_099994279_099997856_100001428_100004993_100008553_100012107_100015654_100019196_100022732_100026261_100029785_100033302_100036814_100040320_100043819_100047312_100050800_100054281_100057756_100061225_100064688_100068145_100071595_100075040_100078478_100081910_100085336_100088756_100092170_100095578_100098979_100102374_100105763_100109145_100112522_100115892_100119256_100122614_100125965_100129310_100132649_100135981_100139308_100142628_100145941_100149248_100152549_100155844_100159132_100162414_100165690_100168959_100172222_100175478_100178728_100181972_100185209_100188440_100191664_100194882_100198093_100201298_100204497_100207689_100210875_100214054_100217227_100220393_100223552_100226706_100229852_100232993_100236126_100239253_100242374_100245488_100248595_100251696_100254791_100257878_100260960_100264034_100267102_100270164_100273219_100276267_100279309_100282344_100285372_100288394_100291409_100294417_100297419_100300414_100303403_100306384_100309360_100312328_100315290_100318245_100321193_100324135_100327070_100329998,
  100332920_100335834_100338743_100341644_100344538_100347426_100350307_100353182_100356049_100358910_100361764_100364611_100367452_100370286_100373112_100375933_100378746_100381552_100384352_100387145_100389931_100392710_100395483_100398248_100401007_100403759_100406504_100409242_100411973_100414698_100417415_100420126_100422830_100425527_100428217_100430900_100433576_100436246_100438908_100441564_100444213_100446854_100449489_100452117_100454738_100457352_100459960_100462560_100465153_100467740_100470319_100472892_100475457_100478016_100480568_100483112_100485650_100488181_100490705_100493222_100495731_100498234_100500730_100503219_100505701_100508176_100510644_100513105_100515559_100518006_100520446_100522879_100525305_100527724_100530136_100532541_100534939_100537330_100539714_100542091_100544461_100546823_100549179_100551528_100553870_100556205_100558532_100560853_100563167_100565473_100567773_100570065_100572351_100574629_100576900_100579165_100581422_100583672_100585915_100588151_100590380_100592602_100594817_100597025_100599226_100601419_100603606_100605786_100607958_100610124_100612282_100614433_100616577_100618715_100620845_100622968_100625084_100627192_100629294_100631389_100633477_100635557_100637631_100639697_100641756_100643808_100645854_100647892_100649923_100651947_100653963_100655973_100657976_100659971_100661960_100663941_100665916_100667883_100669843_100671796_100673742_100675681_100677613_100679538_100681456_100683366_100685270_100687166_100689056_100690938_100692813_100694681_100696542_100698396_100700243_100702083_100703916_100705742_100707560_100709372_100711176_100712974_100714764_100716548_100718324_100720093_100721855_100723610_100725358_100727099_100728833_100730560_100732280_100733992_100735698_100737397_100739088_100740773_100742450_100744121_100745784_100747441_100749090_100750732_100752367_100753996_100755617_100757231_100758838_100760438_100762031_100763617_100765196_100766768_100768334_100769892_100771443_100772987_100774524_100776054_100777576_100779092_100780601_100782103_100783598_100785087_100786568_100788042_100789509_100790969_100792422_100793868_100795307_100796740_100798165_100799583_100800994_100802399_100803796_100805187_100806570_100807947_100809317_100810679_100812035_100813384_100814726_100816061_100817389_100818710_100820025_100821332_100822633_100823926_100825213_100826493_100827766_100829032_100830291_100831543_100832788_100834027_100835259_100836483_100837701_100838912_100840117_100841314_100842505_100843688_100844865_100846035_100847198_100848355_100849504_100850647,
  100851783_100852912_100854035_100855150_100856259_100857361_100858456_100859545_100860626_100861701_100862769_100863831_100864885_100865933_100866974_100868009_100869036_100870057_100871071_100872079_100873080_100874074_100875061_100876042_100877016_100877983_100878943_100879897_100880845_100881785_100882719_100883646_100884567_100885481_100886388_100887289_100888183_100889070_100889951_100890825_100891693_100892554_100893408_100894256_100895097_100895932_100896760_100897581_100898396_100899204_100900006_100900802_100901590_100902372_100903148_100903917_100904680_100905436_100906186_100906929_100907665_100908396_100909119_100909836_100910547_100911251_100911949_100912641_100913326_100914004_100914676_100915342_100916001_100916654_100917300_100917941_100918574_100919201_100919822_100920437_100921045_100921647_100922243_100922832_100923415_100923991_100924561_100925125_100925683_100926234_100926779_100927318_100927850_100928376_100928896_100929410_100929917_100930418_100930913_100931402_100931884_100932361_100932831_100933295_100933752_100934204_100934649_100935088_100935521_100935948_100936369_100936784_100937192_100937594_100937991_100938381_100938765_100939143_100939515_100939880_100940240_100940594_100940941_100941283_100941619_100941948_100942272_100942589_100942901_100943206_100943506_100943799_100944087_100944368_100944644_100944914_100945177_100945435_100945687_100945933_100946173_100946408_100946636_100946858_100947075_100947286_100947491_100947690_100947883_100948070_100948252_100948427_100948597_100948762_100948920_100949072_100949219_100949360_100949496_100949625_100949749_100949867_100949980_100950086_100950187_100950283_100950372_100950456_100950535_100950607_100950674_100950736_100950791_100950842_100950886_100950925_100950959_100950986_100951009_100951025_100951036_100951042_100951042_100951036_100951025_100951009_100950987_100950960_100950927_100950888_100950844_100950795_100950740_100950680_100950614_100950543_100950467_100950385_100950298_100950206_100950108_100950004_100949896_100949782_100949663_100949538_100949408_100949273_100949133_100948987_100948836_100948680_100948518_100948351_100948180_100948002_100947820_100947632_100947440_100947242_100947039_100946831_100946617_100946399_100946175_100945946_100945713_100945474_100945230_100944981_100944727_100944467_100944203_100943934_100943660_100943380_100943096_100942807_100942512_100942213_100941909_100941600_100941286_100940967_100940643_100940314_100939980_100939642_100939298_100938950_100938597_100938239_100937876_100937508_100937136_100936758,
  100936376_100935989_100935598_100935201_100934800_100934394_100933984_100933568_100933148_100932724_100932294_100931860_100931421_100930978_100930530_100930077_100929620_100929158_100928692_100928221_100927745_100927265_100926780_100926291_100925797_100925299_100924796_100924288_100923776_100923260_100922739_100922214_100921684_100921150_100920612_100920069_100919522_100918970_100918414_100917853_100917289_100916719_100916146_100915568_100914986_100914400_100913809_100913214_100912615_100912011_100911404_100910792_100910176_100909555_100908931_100908302_100907669_100907032_100906391_100905745_100905096_100904442_100903785_100903123_100902457_100901787_100901113_100900435_100899753_100899067_100898377_100897683_100896985_100896283_100895577_100894867_100894153_100893435_100892713_100891987_100891258_100890524_100889787_100889046_100888301_100887552_100886799_100886043_100885283_100884519_100883751_100882979_100882204_100881425_100880642_100879855_100879065_100878271_100877473_100876672_100875867_100875058_100874246_100873430_100872611_100871787_100870961_100870131_100869297_100868459_100867618_100866774_100865926_100865074_100864220_100863361_100862499_100861634_100860765_100859893_100859017_100858138_100857255_100856370_100855480_100854588_100853692_100852792_100851890_100850984_100850075_100849162_100848246_100847327_100846405_100845479_100844551_100843619_100842684_100841745_100840804_100839859_100838911_100837960_100837006_100836048_100835088_100834124_100833158_100832188_100831216_100830240_100829261_100828279_100827294_100826307_100825316_100824322_100823325_100822325_100821323_100820317_100819309_100818297_100817283_100816266_100815246_100814223_100813197_100812169_100811138_100810103_100809066_100808027_100806984_100805939_100804891_100803840_100802787_100801731_100800672_100799610_100798546_100797479_100796410_100795338_100794263_100793186_100792106_100791023_100789938_100788851_100787760_100786668_100785572_100784475_100783374_100782272_100781167_100780059_100778949_100777836_100776721_100775604_100774484_100773362_100772237_100771110_100769981_100768849_100767716_100766579_100765441_100764300_100763157_100762011_100760864_100759714_100758562_100757407_100756251_100755092_100753931_100752768_100751603_100750436_100749266_100748095_100746921_100745745_100744567_100743387_100742205_100741021_100739835_100738647_100737457_100736265_100735071_100733875_100732677_100731477_100730275_100729071_100727866_100726658_100725448_100724237_100723024_100721809_100720592_100719373_100718153_100716930_100715706_100714480,
  100713252_100712023_100710792_100709559_100708324_100707088_100705850_100704610_100703369_100702126_100700881_100699635_100698387_100697138_100695887_100694634_100693380_100692124_100690867_100689608_100688347_100687086_100685822_100684557_100683291_100682023_100680754_100679483_100678211_100676938_100675663_100674386_100673109_100671830_100670549_100669268_100667985_100666700_100665415_100664128_100662839_100661550_100660259_100658967_100657674_100656379_100655084_100653787_100652489_100651190_100649889_100648588_100647285_100645981_100644676_100643370_100642063_100640755_100639446_100638136_100636824_100635512_100634199_100632884_100631569_100630253_100628935_100627617_100626298_100624978_100623657_100622335_100621012_100619688_100618363_100617038_100615712_100614384_100613056_100611728_100610398_100609068_100607736_100606404_100605072_100603738_100602404_100601069_100599733_100598397_100597060_100595722_100594384_100593045_100591705_100590365_100589024_100587682_100586340_100584998_100583654_100582311_100580966_100579621_100578276_100576930_100575583_100574236_100572889_100571541_100570193_100568844_100567495_100566145_100564795_100563444_100562094_100560742_100559391_100558039_100556686_100555334_100553981_100552628_100551274_100549920_100548566_100547212_100545857_100544502_100543147_100541792_100540436_100539080_100537724_100536368_100535012_100533656_100532299_100530942_100529586_100528229_100526872_100525515_100524157_100522800_100521443_100520085_100518728_100517371_100516013_100514656_100513299_100511941_100510584_100509227_100507869_100506512_100505155_100503798_100502441_100501084_100499728_100498371_100497015_100495659_100494303_100492947_100491591_100490235_100488880_100487525_100486170_100484816_100483461_100482107_100480753_100479400_100478047_100476694_100475341_100473989_100472637_100471285_100469934_100468583_100467232_100465882_100464532_100463183_100461834_100460486_100459138_100457790_100456443_100455096_100453750_100452404_100451059_100449714_100448370_100447027_100445684_100444341_100442999_100441658_100440317_100438977_100437637_100436298_100434960_100433622_100432285_100430948_100429613_100428277_100426943_100425609_100424276_100422944_100421612_100420282_100418951_100417622_100416294_100414966_100413639_100412312_100410987_100409662_100408339_100407016_100405694_100404372_100403052_100401732_100400414_100399096_100397779_100396463_100395148_100393834_100392521_100391209_100389897_100388587_100387278_100385970_100384662_100383356_100382051_100380746_100379443_100378141_100376840_100375540,
  100374241_100372943_100371646_100370350_100369056_100367762_100366470_100365179_100363888_100362599_100361312_100360025_100358740_100357455_100356172_100354891_100353610_100352331_100351053_100349776_100348500_100347226_100345953_100344681_100343410_100342141_100340873_100339607_100338341_100337077_100335815_100334554_100333294_100332035_100330778_100329522_100328268_100327015_100325764_100324514_100323265_100322018_100320772_100319528_100318285_100317043_100315803_100314565_100313328_100312093_100310859_100309627_100308396_100307166_100305939_100304713_100303488_100302265_100301043_100299824_100298605_100297389_100296174_100294960_100293749_100292538_100291330_100290123_100288918_100287714_100286513_100285312_100284114_100282917_100281722_100280529_100279337_100278148_100276960_100275773_100274589_100273406_100272225_100271046_100269868_100268692_100267519_100266347_100265176_100264008_100262841_100261677_100260514_100259353_100258194_100257036_100255881_100254728_100253576_100252426_100251278_100250133_100248989_100247847_100246707_100245569_100244432_100243298_100242166_100241036_100239907_100238781_100237657_100236535_100235414_100234296_100233180_100232066_100230954_100229844_100228736_100227630_100226526_100225424_100224324_100223226_100222131_100221037_100219946_100218857_100217770_100216685_100215602_100214521_100213443_100212366_100211292_100210220_100209150_100208082_100207017_100205954_100204892_100203834_100202777_100201722_100200670_100199620_100198572_100197527_100196484_100195443_100194404_100193367_100192333_100191301_100190272_100189244_100188219_100187197_100186176_100185158_100184143_100183129_100182118_100181109_100180103_100179099_100178097_100177098_100176101_100175107_100174114_100173125_100172137_100171152_100170170_100169190_100168212_100167237_100166264_100165293_100164325_100163360_100162397_100161436_100160478_100159522_100158569_100157618_100156670_100155724_100154781_100153841_100152902_100151967_100151033_100150103_100149175_100148249_100147326_100146405_100145487_100144572_100143659_100142749_100141841_100140936_100140033_100139133_100138236_100137341_100136449_100135559_100134672_100133788_100132906_100132027_100131150_100130276_100129405_100128537_100127671_100126807_100125947_100125089_100124233_100123381_100122531_100121683_100120839_100119997_100119157_100118321_100117487_100116656_100115827_100115002_100114179_100113358_100112541_100111726_100110914_100110104_100109298_100108494_100107693_100106894_100106099_100105306_100104516_100103729_100102944_100102162_100101383_100100607,
  100099834_100099063_100098295_100097530_100096768_100096008_100095252_100094498_100093747_100092999_100092254_100091511_100090772_100090035_100089301_100088570_100087841_100087116_100086393_100085674_100084957_100084243_100083532_100082823_100082118_100081415_100080716_100080019_100079325_100078634_100077946_100077261_100076579_100075899_100075223_100074549_100073879_100073211_100072546_100071884_100071225_100070569_100069916_100069266_100068618_100067974_100067333_100066694_100066059_100065426_100064797_100064170_100063546_100062926_100062308_100061693_100061081_100060472_100059866_100059263_100058663_100058066_100057472_100056881_100056293_100055708_100055126_100054547_100053971_100053398_100052828_100052261_100051696_100051135_100050577_100050022_100049470_100048921_100048375_100047832_100047292_100046755_100046221_100045690_100045162_100044637_100044115_100043596_100043080_100042568_100042058_100041551_100041047_100040547_100040049_100039555_100039063_100038575_100038089_100037607_100037127_100036651_100036178_100035708_100035241_100034777_100034316_100033858_100033403_100032951_100032502_100032056_100031614_100031174_100030738_100030304_100029874_100029447_100029022_100028601_100028183_100027768_100027356_100026947_100026542_100026139_100025739_100025343_100024949_100024559_100024171_100023787_100023406_100023028_100022653_100022281_100021912_100021547_100021184_100020824_100020468_100020115_100019764_100019417_100019073_100018732_100018394_100018059_100017727_100017399_100017073_100016751_100016431_100016115_100015802_100015491_100015184_100014880_100014580_100014282_100013987_100013696_100013407_100013122_100012839_100012560_100012284_100012011_100011741_100011474_100011210_100010950_100010692_100010437_100010186_100009938_100009692_100009450_100009211_100008975_100008742_100008512_100008286_100008062_100007841_100007624_100007410_100007198_100006990_100006785_100006583_100006384_100006188_100005995_100005805_100005619_100005435_100005254_100005077_100004902_100004731_100004563_100004398_100004236_100004077_100003921_100003768_100003618_100003471_100003327_100003187_100003049_100002914_100002783_100002654_100002529_100002407_100002287_100002171_100002058_100001948_100001841_100001737_100001636_100001538_100001443_100001351_100001262_100001176_100001094_100001014_100000937_100000864_100000793_100000725_100000661_100000599_100000541_100000485_100000433_100000383_100000337_100000293_100000253_100000215_100000181_100000149_100000121_100000096_100000073_100000054_100000037_100000024_100000013_100000006_100000001]

/-- `_lanczos6_vtable`, pmesh/_window_lanczos.h:8320-10368: 8192 entries. -/
def lanczos6Rows : List ℕ := [
  199962398_199962308_199962036_199961582_199960948_199960132_199959135_199957956_199956596_199955055_199953333_199951429_199949344_199947078_199944630_199942001_199939191_199936200_199933028_199929674_199926139_199922423_199918526_199914447_199910188_199905747_199901125_199896322_199891338_199886173_199880827_199875299_199869591_199863702_199857632_199851380_199844948_199838335_199831541_199824566_199817411_199810074_199802557_199794859_199786980_199778920_199770680_199762259_199753657_199744875_199735912_199726769_199717445_199707941_199698256_199688391_199678345_199668119_199657713_199647126_199636360_199625412_199614285_199602978_199591490_199579823_199567975_199555948_199543740_199531353_199518786_199506039_199493112_199480005_199466719_199453253_199439608_199425783_199411778_199397594_199383231_199368688_199353966_199339065_199323984_199308724_199293285_199277668_199261871_199245895_199229740_199213407_199196894_199180203_199163333_199146285_199129058_199111653_199094069_199076307_199058366_199040247_199021950_199003475_198984822_198965990_198946981_198927794_198908429_198888886_198869166_198849268_198829192_198808939_198788509_198767901_198747116_198726154_198705014_198683698_198662204_198640534_198618686_198596662_198574461_198552084_198529530_198506799_198483892_198460809_198437550_198414114_198390503_198366715_198342751_198318612_198294296_198269805_198245139_198220297_198195279_198170086_198144718_198119175_198093457_198067563_198041495_198015252_197988834_197962241_197935474_197908532_197881416_197854126_197826662_197799023_197771210_197743224_197715063_197686729_197658222_197629540_197600686_197571657_197542456_197513082_197483534_197453814_197423920_197393854_197363615_197333204_197302620_197271864_197240936_197209835_197178563_197147118_197115502_197083714_197051755_197019624_196987321_196954847_196922202_196889386_196856399_196823242_196789913_196756414_196722744_196688904_196654894_196620713_196586363_196551842_196517152_196482292_196447263_196412063_196376695_196341157_196305451_196269575_196233530_196197317_196160935_196124385_196087666_196050779_196013723_195976500_195939109_195901550_195863823_195825929_195787868_195749639_195711243_195672681_195633951_195595055_195555992_195516762_195477366_195437804_195398076_195358182_195318122_195277897_195237506_195196949_195156227_195115341_195074289_195033072_194991691_194950145_194908434_194866559_194824520_194782318_194739951_194697420_194654726_194611869_194568848_194525664_194482317_194438807_194395134_194351299_194307301_194263141_194218819_194174335,
  194129689_194084881_194039912_193994782_193949490_193904037_193858423_193812649_193766714_193720618_193674362_193627946_193581370_193534634_193487738_193440683_193393468_193346094_193298562_193250870_193203019_193155010_193106842_193058517_193010033_192961391_192912591_192863634_192814519_192765247_192715818_192666232_192616489_192566590_192516534_192466321_192415953_192365429_192314749_192263913_192212922_192161775_192110474_192059017_192007406_191955640_191903720_191851646_191799417_191747035_191694498_191641809_191588966_191535969_191482820_191429518_191376063_191322456_191268696_191214785_191160721_191106505_191052138_190997620_190942950_190888130_190833158_190778036_190722763_190667340_190611767_190556044_190500172_190444149_190387978_190331657_190275187_190218568_190161801_190104885_190047821_189990609_189933249_189875741_189818086_189760284_189702334_189644238_189585995_189527605_189469069_189410387_189351559_189292585_189233466_189174202_189114792_189055237_188995538_188935693_188875705_188815573_188755296_188694876_188634312_188573605_188512754_188451761_188390625_188329346_188267926_188206362_188144657_188082811_188020822_187958693_187896422_187834011_187771458_187708766_187645933_187582959_187519846_187456594_187393202_187329670_187266000_187202191_187138243_187074157_187009932_186945570_186881070_186816432_186751657_186686745_186621696_186556511_186491189_186425730_186360136_186294406_186228540_186162539_186096402_186030131_185963725_185897185_185830510_185763701_185696758_185629682_185562472_185495129_185427653_185360045_185292304_185224430_185156425_185088287_185020019_184951618_184883087_184814424_184745631_184676708_184607654_184538470_184469156_184399713_184330141_184260439_184190608_184120649_184050562_183980346_183910002_183839530_183768931_183698205_183627352_183556372_183485265_183414032_183342673_183271188_183199578_183127842_183055981_182983995_182911884_182839649_182767290_182694806_182622199_182549469_182476615_182403638_182330539_182257317_182183973_182110506_182036918_181963208_181889377_181815425_181741352_181667159_181592845_181518411_181443857_181369183_181294390_181219478_181144447_181069298_180994030_180918644_180843140_180767518_180691779_180615923_180539950_180463860_180387654_180311332_180234894_180158340_180081670_180004886_179927987_179850973_179773844_179696602_179619245_179541775_179464192_179386495_179308686_179230764_179152729_179074583_178996324_178917954_178839473_178760880_178682177_178603363_178524439_178445404_178366260_178287007_178207644_178128172_178048591_177968902,
  177889104_177809198_177729185_177649064_177568836_177488502_177408060_177327512_177246858_177166098_177085232_177004261_176923184_176842003_176760718_176679328_176597833_176516236_176434534_176352730_176270822_176188811_176106699_176024484_175942167_175859748_175777228_175694607_175611885_175529062_175446139_175363116_175279993_175196771_175113449_175030029_174946510_174862892_174779176_174695363_174611451_174527442_174443337_174359134_174274835_174190440_174105948_174021361_173936679_173851901_173767028_173682061_173597000_173511844_173426595_173341252_173255816_173170286_173084665_172998950_172913144_172827246_172741256_172655175_172569003_172482740_172396386_172309943_172223409_172136786_172050074_171963272_171876382_171789403_171702336_171615181_171527938_171440608_171353190_171265686_171178095_171090418_171002656_170914807_170826873_170738854_170650749_170562561_170474288_170385931_170297490_170208966_170120359_170031668_169942896_169854040_169765103_169676084_169586984_169497803_169408540_169319197_169229774_169140271_169050687_168961025_168871283_168781463_168691564_168601586_168511531_168421397_168331187_168240899_168150534_168060093_167969576_167878982_167788313_167697568_167606748_167515854_167424885_167333841_167242724_167151533_167060268_166968931_166877520_166786037_166694482_166602855_166511157_166419387_166327545_166235634_166143651_166051599_165959476_165867284_165775023_165682693_165590294_165497826_165405290_165312687_165220016_165127278_165034473_164941601_164848662_164755658_164662588_164569453_164476252_164382986_164289656_164196261_164102803_164009280_163915695_163822046_163728334_163634560_163540724_163446825_163352865_163258844_163164762_163070619_162976415_162882151_162787828_162693445_162599002_162504501_162409941_162315322_162220646_162125912_162031120_161936271_161841365_161746403_161651384_161556310_161461179_161365994_161270753_161175457_161080107_160984703_160889245_160793733_160698168_160602550_160506879_160411156_160315381_160219554_160123676_160027746_159931765_159835734_159739653_159643521_159547340_159451110_159354830_159258502_159162125_159065700_158969227_158872706_158776139_158679524_158582862_158486155_158389401_158292601_158195756_158098865_158001930_157904951_157807927_157710859_157613747_157516592_157419394_157322153_157224870_157127544_157030177_156932768_156835318_156737827_156640295_156542723_156445111_156347460_156249769_156152038_156054269_155956461_155858616_155760732_155662810_155564852_155466856_155368824_155270755_155172650_155074509_154976333_154878122_154779875,
  154681594_154583279_154484930_154386547_154288131_154189682_154091200_153992686_153894139_153795561_153696951_153598309_153499637_153400934_153302201_153203438_153104645_153005823_152906971_152808091_152709182_152610245_152511280_152412287_152313268_152214221_152115147_152016047_151916921_151817769_151718592_151619389_151520162_151420910_151321634_151222334_151123010_151023662_150924292_150824899_150725483_150626046_150526586_150427105_150327603_150228080_150128536_150028971_149929387_149829783_149730160_149630517_149530856_149431176_149331478_149231762_149132028_149032277_148932509_148832725_148732923_148633106_148533273_148433425_148333561_148233683_148133789_148033882_147933961_147834025_147734077_147634115_147534141_147434154_147334155_147234144_147134122_147034088_146934043_146833988_146733922_146633846_146533760_146433665_146333561_146233448_146133326_146033196_145933058_145832913_145732760_145632600_145532433_145432259_145332080_145231895_145131704_145031508_144931306_144831101_144730890_144630676_144530458_144430237_144330012_144229784_144129554_144029322_143929087_143828851_143728614_143628375_143528136_143427896_143327656_143227416_143127176_143026938_142926700_142826463_142726228_142625995_142525764_142425536_142325310_142225088_142124868_142024653_141924441_141824234_141724031_141623833_141523641_141423453_141323272_141223096_141122927_141022764_140922609_140822460_140722319_140622186_140522061_140421944_140321836_140221737_140121647_140021567_139921497_139821436_139721387_139621348_139521320_139421303_139321298_139221305_139121324_139021355_138921399_138821457_138721527_138621612_138521710_138421822_138321949_138222091_138122248_138022421_137922609_137822813_137723033_137623270_137523523_137423794_137324083_137224388_137124712_137025055_136925415_136825795_136726194_136626612_136527050_136427508_136327987_136228485_136129005_136029546_135930109_135830693_135731299_135631927_135532578_135433252_135333949_135234670_135135414_135036182_134936975_134837792_134738634_134639501_134540394_134441312_134342257_134243227_134144224_134045248_133946300_133847378_133748484_133649619_133550781_133451972_133353192_133254441_133155719_133057027_132958365_132859734_132761132_132662562_132564022_132465514_132367038_132268593_132170181_132071801_131973453_131875139_131776858_131678611_131580397_131482218_131384073_131285962_131187887_131089847_130991842_130893873_130795940_130698044_130600184_130502360_130404574_130306826_130209115_130111442_130013807_129916211_129818654_129721135_129623656_129526217_129428817_129331458,
  129234139_129136861_129039623_128942427_128845272_128748160_128651089_128554060_128457074_128360131_128263231_128166374_128069561_127972792_127876067_127779386_127682750_127586159_127489613_127393113_127296659_127200250_127103888_127007573_126911304_126815082_126718908_126622781_126526703_126430672_126334690_126238756_126142872_126047036_125951250_125855514_125759827_125664191_125568606_125473071_125377587_125282154_125186773_125091444_124996167_124900942_124805770_124710650_124615584_124520570_124425611_124330705_124235854_124141056_124046314_123951626_123856993_123762416_123667894_123573428_123479019_123384666_123290369_123196129_123101947_123007821_122913754_122819744_122725793_122631900_122538065_122444290_122350573_122256916_122163319_122069781_121976304_121882887_121789531_121696235_121603001_121509828_121416717_121323667_121230680_121137755_121044893_120952093_120859357_120766683_120674074_120581528_120489047_120396629_120304276_120211988_120119765_120027608_119935516_119843489_119751529_119659634_119567807_119476046_119384351_119292724_119201165_119109673_119018249_118926893_118835606_118744387_118653237_118562156_118471144_118380202_118289330_118198528_118107796_118017134_117926543_117836023_117745574_117655197_117564891_117474657_117384495_117294406_117204389_117114445_117024574_116934776_116845052_116755401_116665824_116576321_116486893_116397540_116308261_116219057_116129928_116040875_115951898_115862997_115774172_115685423_115596751_115508156_115419637_115331196_115242833_115154547_115066340_114978210_114890159_114802186_114714292_114626478_114538742_114451086_114363510_114276013_114188597_114101261_114014006_113926831_113839738_113752725_113665794_113578945_113492177_113405492_113318889_113232368_113145930_113059575_112973303_112887114_112801009_112714988_112629050_112543197_112457428_112371743_112286144_112200629_112115200_112029856_111944597_111859425_111774338_111689338_111604424_111519597_111434856_111350203_111265636_111181158_111096767_111012463_110928248_110844121_110760082_110676133_110592271_110508499_110424817_110341223_110257719_110174305_110090982_110007748_109924605_109841552_109758590_109675719_109592939_109510251_109427654_109345149_109262736_109180415_109098187_109016051_108934008_108852057_108770200_108688436_108606766_108525189_108443706_108362317_108281022_108199822_108118716_108037705_107956789_107875968_107795243_107714613_107634079_107553640_107473298_107393052_107312902_107232849_107152893_107073034_106993272_106913607_106834040_106754570_106675199_106595925_106516749_106437672,
  106358694_106279814_106201033_106122352_106043769_105965286_105886903_105808619_105730435_105652352_105574368_105496486_105418703_105341022_105263442_105185962_105108585_105031308_104954133_104877060_104800089_104723221_104646454_104569790_104493229_104416770_104340414_104264162_104188013_104111967_104036025_103960186_103884452_103808822_103733296_103657874_103582557_103507345_103432238_103357235_103282338_103207546_103132860_103058280_102983805_102909436_102835174_102761017_102686967_102613024_102539188_102465458_102391836_102318320_102244912_102171612_102098419_102025334_101952357_101879488_101806727_101734075_101661531_101589096_101516770_101444553_101372445_101300446_101228556_101156776_101085106_101013546_100942095_100870755_100799525_100728405_100657396_100586498_100515710_100445033_100374468_100304014_100233671_100163439_100093319_100023311_099953415_099883631_099813959_099744399_099674952_099605617_099536395_099467286_099398290_099329407_099260637_099191981_099123438_099055008_098986693_098918491_098850403_098782429_098714570_098646825_098579194_098511678_098444277_098376991_098309819_098242763_098175822_098108996_098042286_097975691_097909212_097842849_097776602_097710471_097644456_097578557_097512775_097447109_097381560_097316128_097250812_097185614_097120532_097055568_096990721_096925992_096861380_096796886_096732510_096668251_096604111_096540088_096476184_096412398_096348731_096285182_096221752_096158440_096095247_096032174_095969219_095906383_095843667_095781070_095718593_095656235_095593997_095531878_095469880_095408001_095346243_095284604_095223086_095161689_095100411_095039255_094978219_094917303_094856509_094795835_094735283_094674852_094614542_094554353_094494285_094434340_094374515_094314813_094255232_094195773_094136436_094077221_094018128_093959157_093900309_093841583_093782979_093724498_093666140_093607904_093549792_093491802_093433935_093376191_093318570_093261073_093203698_093146448_093089320_093032316_092975436_092918680_092862047_092805538_092749153_092692892_092636755_092580742_092524854_092469090_092413450_092357934_092302544_092247277_092192136_092137119_092082227_092027459_091972817_091918300_091863908_091809641_091755499_091701482_091647591_091593825_091540185_091486670_091433281_091380017_091326880_091273868_091220982_091168221_091115587_091063079_091010697_090958441_090906311_090854308_090802431_090750680_090699056_090647558_090596187_090544943_090493825_090442833_090391969_090341232_090290621_090240137_090189780_090139551_090089448_090039473_089989624_089939903_089890310_089840843,
  89791504_089742293_089693208_089644252_089595423_089546721_089498148_089449702_089401383_089353193_089305130_089257195_089209388_089161709_089114158_089066735_089019441_088972274_088925235_088878325_088831543_088784889_088738363_088691966_088645697_088599556_088553544_088507661_088461905_088416279_088370781_088325411_088280171_088235059_088190075_088145220_088100494_088055897_088011429_087967089_087922879_087878797_087834844_087791020_087747325_087703759_087660322_087617014_087573835_087530785_087487865_087445073_087402411_087359877_087317473_087275198_087233053_087191036_087149149_087107391_087065762_087024263_086982893_086941652_086900541_086859559_086818707_086777983_086737390_086696925_086656590_086616385_086576309_086536362_086496545_086456858_086417300_086377871_086338572_086299402_086260362_086221451_086182670_086144019_086105497_086067104_086028842_085990708_085952704_085914830_085877085_085839470_085801985_085764629_085727402_085690305_085653338_085616500_085579792_085543213_085506764_085470444_085434254_085398194_085362263_085326461_085290789_085255246_085219833_085184550_085149396_085114371_085079476_085044710_085010074_084975567_084941190_084906942_084872823_084838834_084804974_084771244_084737642_084704171_084670828_084637615_084604531_084571576_084538751_084506054_084473487_084441049_084408741_084376561_084344511_084312589_084280797_084249134_084217600_084186195_084154919_084123771_084092753_084061864_084031103_084000472_083969969_083939595_083909350_083879234_083849246_083819387_083789657_083760056_083730583_083701238_083672023_083642935_083613976_083585146_083556444_083527871_083499425_083471109_083442920_083414860_083386928_083359124_083331448_083303900_083276481_083249189_083222026_083194990_083168082_083141303_083114651_083088126_083061730_083035461_083009320_082983307_082957421_082931663_082906032_082880528_082855152_082829904_082804782_082779788_082754921_082730182_082705569_082681084_082656725_082632494_082608389_082584412_082560561_082536837_082513239_082489768_082466424_082443207_082420116_082397151_082374313_082351601_082329016_082306556_082284223_082262016_082239935_082217980_082196151_082174448_082152871_082131419_082110093_082088893_082067819_082046869_082026046_082005348_081984775_081964327_081944005_081923808_081903735_081883788_081863966_081844269_081824696_081805249_081785926_081766727_081747653_081728704_081709879_081691178_081672602_081654150_081635822_081617618_081599538_081581582_081563749_081546041_081528456_081510995_081493658_081476443_081459353_081442385_081425541_081408820,
  81392222_081375748_081359396_081343167_081327060_081311077_081295216_081279478_081263862_081248368_081232997_081217748_081202621_081187616_081172733_081157972_081143333_081128816_081114420_081100146_081085993_081071962_081058052_081044263_081030595_081017048_081003623_080990318_080977134_080964070_080951127_080938305_080925603_080913021_080900560_080888219_080875998_080863896_080851915_080840053_080828311_080816689_080805186_080793803_080782538_080771393_080760367_080749460_080738672_080728003_080717453_080707021_080696708_080686513_080676436_080666478_080656637_080646915_080637311_080627824_080618456_080609204_080600071_080591054_080582155_080573374_080564709_080556161_080547730_080539416_080531219_080523138_080515174_080507326_080499594_080491979_080484479_080477096_080469828_080462676_080455639_080448718_080441913_080435222_080428647_080422187_080415842_080409611_080403496_080397495_080391608_080385836_080380178_080374634_080369204_080363888_080358686_080353598_080348623_080343761_080339013_080334378_080329856_080325448_080321152_080316968_080312898_080308940_080305094_080301361_080297739_080294230_080290832_080287547_080284373_080281310_080278359_080275520_080272791_080270173_080267667_080265271_080262986_080260811_080258747_080256793_080254949_080253215_080251591_080250077_080248673_080247378_080246192_080245116_080244149_080243291_080242542_080241901_080241369_080240946_080240631_080240424_080240326_080240335_080240452_080240677_080241009_080241449_080241996_080242650_080243411_080244280_080245255_080246336_080247524_080248818_080250219_080251726_080253338_080255057_080256881_080258810_080260845_080262986_080265231_080267581_080270037_080272596_080275261_080278030_080280903_080283880_080286961_080290146_080293435_080296827_080300323_080303922_080307624_080311429_080315337_080319348_080323461_080327677_080331995_080336415_080340937_080345561_080350286_080355113_080360042_080365071_080370202_080375434_080380767_080386200_080391733_080397367_080403102_080408936_080414870_080420904_080427038_080433271_080439603_080446034_080452565_080459194_080465922_080472749_080479674_080486697_080493818_080501037_080508354_080515769_080523281_080530890_080538597_080546400_080554300_080562297_080570391_080578581_080586867_080595249_080603727_080612301_080620971_080629736_080638596_080647551_080656602_080665747_080674986_080684320_080693749_080703272_080712888_080722599_080732403_080742301_080752292_080762376_080772553_080782824_080793186_080803642_080814190_080824830_080835562_080846386_080857301_080868309_080879407_080890597,
  80901878_080913250_080924713_080936266_080947910_080959644_080971468_080983381_080995385_081007478_081019661_081031933_081044294_081056743_081069282_081081909_081094625_081107428_081120320_081133300_081146368_081159523_081172765_081186095_081199511_081213015_081226605_081240282_081254045_081267895_081281830_081295851_081309958_081324151_081338428_081352791_081367239_081381772_081396389_081411091_081425877_081440747_081455702_081470740_081485861_081501066_081516354_081531726_081547180_081562717_081578336_081594038_081609822_081625688_081641636_081657666_081673777_081689969_081706243_081722597_081739032_081755548_081772144_081788821_081805577_081822414_081839330_081856326_081873401_081890555_081907788_081925100_081942491_081959960_081977507_081995132_082012836_082030617_082048476_082066412_082084425_082102515_082120682_082138926_082157246_082175642_082194115_082212663_082231287_082249987_082268762_082287612_082306537_082325537_082344612_082363761_082382985_082402282_082421653_082441098_082460617_082480209_082499874_082519612_082539423_082559307_082579262_082599291_082619391_082639563_082659806_082680122_082700508_082720966_082741494_082762094_082782763_082803504_082824314_082845194_082866145_082887164_082908254_082929412_082950640_082971936_082993301_083014735_083036237_083057807_083079445_083101151_083122924_083144764_083166672_083188647_083210689_083232797_083254971_083277212_083299519_083321892_083344330_083366834_083389403_083412037_083434736_083457500_083480328_083503221_083526178_083549198_083572283_083595431_083618642_083641917_083665254_083688654_083712117_083735643_083759230_083782880_083806591_083830364_083854199_083878095_083902051_083926069_083950147_083974286_083998486_084022745_084047064_084071443_084095881_084120379_084144936_084169552_084194226_084218959_084243751_084268600_084293508_084318474_084343497_084368577_084393714_084418909_084444160_084469468_084494833_084520254_084545730_084571263_084596851_084622495_084648194_084673947_084699756_084725620_084751538_084777510_084803536_084829616_084855750_084881938_084908178_084934472_084960819_084987218_085013670_085040175_085066731_085093339_085120000_085146711_085173474_085200288_085227153_085254069_085281036_085308052_085335119_085362236_085389403_085416619_085443885_085471200_085498564_085525976_085553438_085580947_085608505_085636111_085663765_085691466_085719215_085747011_085774854_085802744_085830680_085858663_085886692_085914767_085942888_085971055_085999267_086027525_086055827_086084175_086112567_086141003_086169484_086198009_086226578_086255190,
  86283846_086312545_086341287_086370073_086398900_086427771_086456683_086485638_086514635_086543673_086572753_086601875_086631037_086660240_086689484_086718769_086748094_086777459_086806864_086836309_086865793_086895317_086924880_086954481_086984122_087013801_087043519_087073274_087103068_087132899_087162768_087192675_087222618_087252599_087282616_087312670_087342760_087372887_087403049_087433248_087463482_087493751_087524056_087554395_087584770_087615179_087645623_087676100_087706612_087737158_087767737_087798350_087828996_087859675_087890387_087921132_087951909_087982718_088013560_088044433_088075338_088106275_088137242_088168241_088199271_088230332_088261423_088292544_088323696_088354877_088386089_088417329_088448599_088479899_088511227_088542584_088573969_088605383_088636825_088668295_088699793_088731318_088762871_088794451_088826058_088857692_088889353_088921039_088952753_088984492_089016257_089048047_089079863_089111705_089143571_089175462_089207378_089239319_089271283_089303272_089335285_089367321_089399381_089431465_089463571_089495700_089527852_089560027_089592224_089624443_089656684_089688947_089721232_089753538_089785865_089818213_089850582_089882971_089915381_089947811_089980262_090012732_090045222_090077731_090110260_090142807_090175374_090207959_090240563_090273185_090305825_090338484_090371160_090403853_090436564_090469292_090502037_090534799_090567578_090600373_090633184_090666012_090698855_090731713_090764588_090797477_090830382_090863302_090896236_090929185_090962148_090995126_091028117_091061122_091094141_091127173_091160218_091193277_091226348_091259432_091292528_091325637_091358758_091391890_091425035_091458191_091491358_091524536_091557726_091590926_091624137_091657358_091690590_091723831_091757082_091790344_091823614_091856894_091890183_091923481_091956787_091990103_092023426_092056758_092090098_092123446_092156801_092190164_092223534_092256911_092290295_092323686_092357083_092390487_092423897_092457313_092490734_092524162_092557595_092591033_092624476_092657924_092691377_092724834_092758296_092791762_092825232_092858705_092892183_092925663_092959148_092992635_093026125_093059618_093093113_093126611_093160111_093193613_093227117_093260623_093294130_093327638_093361148_093394658_093428169_093461681_093495194_093528706_093562219_093595731_093629243_093662755_093696266_093729776_093763286_093796794_093830301_093863806_093897310_093930811_093964311_093997808_094031303_094064796_094098286_094131773_094165256_094198737_094232214_094265687_094299157_094332623_094366085_094399542_094432995_094466443,
  94499886_094533325_094566758_094600186_094633608_094667025_094700436_094733841_094767240_094800632_094834018_094867397_094900769_094934134_094967492_095000843_095034186_095067522_095100849_095134169_095167480_095200783_095234078_095267363_095300640_095333908_095367166_095400415_095433655_095466885_095500105_095533315_095566515_095599704_095632883_095666051_095699209_095732355_095765490_095798614_095831726_095864826_095897915_095930992_095964056_095997108_096030148_096063175_096096189_096129190_096162178_096195153_096228114_096261062_096293996_096326915_096359821_096392713_096425590_096458452_096491300_096524133_096556951_096589753_096622540_096655312_096688068_096720808_096753532_096786240_096818931_096851606_096884265_096916906_096949531_096982139_097014729_097047302_097079857_097112395_097144914_097177416_097209900_097242365_097274811_097307239_097339648_097372039_097404410_097436762_097469094_097501407_097533700_097565974_097598227_097630460_097662673_097694865_097727037_097759188_097791318_097823427_097855515_097887581_097919626_097951649_097983651_098015630_098047587_098079522_098111435_098143325_098175193_098207037_098238859_098270658_098302433_098334185_098365913_098397617_098429298_098460955_098492587_098524196_098555780_098587339_098618873_098650383_098681868_098713327_098744762_098776171_098807554_098838912_098870243_098901549_098932829_098964082_098995309_099026510_099057683_099088830_099119950_099151043_099182109_099213147_099244158_099275141_099306096_099337024_099367923_099398794_099429637_099460451_099491237_099521994_099552722_099583421_099614091_099644732_099675343_099705925_099736477_099767000_099797492_099827954_099858387_099888788_099919160_099949500_099979810_100010090_100040338_100070555_100100741_100130895_100161018_100191109_100221169_100251197_100281192_100311156_100341087_100370986_100400852_100430686_100460487_100490255_100519990_100549692_100579360_100608995_100638597_100668165_100697699_100727199_100756666_100786098_100815496_100844859_100874188_100903483_100932742_100961967_100991157_101020311_101049431_101078515_101107563_101136576_101165554_101194495_101223400_101252270_101281103_101309900_101338661_101367384_101396072_101424722_101453336_101481913_101510452_101538955_101567419_101595847_101624237_101652589_101680904_101709180_101737419_101765619_101793781_101821905_101849990_101878037_101906045_101934014_101961944_101989835_102017687_102045500_102073274_102101008_102128702_102156357_102183972_102211547_102239082_102266577_102294031_102321446_102348820_102376153_102403446_102430698,
  102457909_102485079_102512208_102539296_102566343_102593348_102620312_102647234_102674115_102700953_102727750_102754505_102781218_102807888_102834517_102861103_102887646_102914147_102940605_102967020_102993393_103019722_103046009_103072252_103098452_103124608_103150721_103176791_103202817_103228799_103254737_103280631_103306481_103332287_103358049_103383767_103409440_103435068_103460652_103486191_103511686_103537135_103562540_103587899_103613214_103638483_103663706_103688885_103714017_103739105_103764146_103789142_103814092_103838995_103863853_103888665_103913430_103938149_103962822_103987448_104012028_104036561_104061047_104085487_104109879_104134225_104158523_104182774_104206978_104231135_104255244_104279306_104303320_104327287_104351205_104375076_104398900_104422675_104446402_104470080_104493711_104517294_104540827_104564313_104587750_104611138_104634478_104657769_104681011_104704204_104727348_104750443_104773489_104796486_104819434_104842332_104865180_104887979_104910729_104933429_104956079_104978679_105001229_105023730_105046180_105068581_105090931_105113231_105135480_105157680_105179828_105201927_105223974_105245971_105267918_105289813_105311658_105333451_105355194_105376886_105398526_105420116_105441654_105463141_105484576_105505960_105527293_105548573_105569803_105590980_105612106_105633180_105654202_105675172_105696090_105716956_105737770_105758531_105779241_105799898_105820503_105841055_105861555_105882002_105902396_105922738_105943028_105963264_105983448_106003578_106023656_106043681_106063652_106083571_106103436_106123248_106143007_106162712_106182365_106201963_106221508_106241000_106260438_106279822_106299153_106318430_106337653_106356822_106375937_106394999_106414006_106432959_106451858_106470703_106489494_106508231_106526913_106545541_106564114_106582633_106601098_106619508_106637863_106656164_106674410_106692601_106710738_106728820_106746847_106764819_106782736_106800599_106818406_106836158_106853855_106871497_106889083_106906615_106924091_106941512_106958878_106976188_106993442_107010642_107027786_107044874_107061906_107078883_107095805_107112671_107129481_107146235_107162933_107179576_107196163_107212693_107229168_107245587_107261950_107278257_107294508_107310702_107326841_107342923_107358949_107374919_107390833_107406691_107422492_107438236_107453925_107469557_107485132_107500651_107516113_107531519_107546869_107562162_107577398_107592577_107607700_107622767_107637776_107652729_107667625_107682464_107697246_107711972_107726640_107741252_107755807_107770305_107784746_107799130_107813457_107827727,
  107841939_107856095_107870194_107884236_107898220_107912147_107926017_107939830_107953586_107967285_107980926_107994510_108008037_108021506_108034918_108048273_108061570_108074810_108087993_108101118_108114186_108127196_108140149_108153045_108165883_108178664_108191387_108204052_108216660_108229211_108241704_108254139_108266517_108278837_108291100_108303305_108315452_108327542_108339575_108351549_108363466_108375325_108387127_108398871_108410557_108422186_108433757_108445270_108456725_108468123_108479463_108490745_108501970_108513137_108524246_108535297_108546291_108557227_108568105_108578925_108589688_108600393_108611040_108621629_108632161_108642634_108653050_108663409_108673709_108683952_108694137_108704264_108714334_108724345_108734299_108744195_108754034_108763814_108773537_108783202_108792810_108802359_108811851_108821286_108830662_108839981_108849242_108858445_108867591_108876679_108885709_108894681_108903596_108912453_108921253_108929995_108938679_108947306_108955875_108964386_108972840_108981236_108989574_108997855_109006079_109014245_109022353_109030404_109038397_109046333_109054211_109062032_109069795_109077501_109085149_109092740_109100274_109107750_109115169_109122530_109129834_109137081_109144270_109151402_109158477_109165495_109172455_109179358_109186204_109192992_109199724_109206398_109213015_109219575_109226078_109232524_109238912_109245244_109251519_109257736_109263897_109270000_109276047_109282037_109287970_109293846_109299665_109305428_109311133_109316782_109322374_109327909_109333388_109338810_109344175_109349484_109354736_109359931_109365070_109370152_109375178_109380148_109385061_109389917_109394717_109399461_109404148_109408780_109413354_109417873_109422336_109426742_109431092_109435386_109439624_109443805_109447931_109452001_109456015_109459972_109463874_109467720_109471511_109475245_109478924_109482547_109486114_109489625_109493081_109496482_109499826_109503116_109506349_109509528_109512650_109515718_109518730_109521687_109524588_109527434_109530225_109532961_109535642_109538268_109540838_109543354_109545815_109548220_109550571_109552867_109555108_109557295_109559426_109561503_109563526_109565494_109567407_109569265_109571069_109572819_109574515_109576156_109577742_109579275_109580753_109582177_109583547_109584862_109586124_109587332_109588486_109589586_109590632_109591624_109592562_109593447_109594278_109595056_109595779_109596450_109597066_109597630_109598140_109598597_109599000_109599350_109599647_109599891_109600081_109600219_109600304_109600335_109600314_109600240_109600113_109599934,
  109599701_109599416_109599079_109598689_109598246_109597752_109597204_109596605_109595953_109595249_109594492_109593684_109592823_109591911_109590947_109589930_109588862_109587742_109586571_109585348_109584073_109582746_109581368_109579939_109578458_109576926_109575343_109573708_109572023_109570286_109568498_109566659_109564770_109562829_109560838_109558796_109556703_109554559_109552366_109550121_109547826_109545481_109543085_109540639_109538143_109535597_109533001_109530355_109527659_109524913_109522117_109519271_109516376_109513431_109510436_109507392_109504299_109501156_109497964_109494722_109491432_109488092_109484703_109481265_109477779_109474243_109470659_109467026_109463344_109459614_109455835_109452008_109448132_109444208_109440236_109436216_109432147_109428031_109423866_109419654_109415394_109411086_109406730_109402326_109397875_109393377_109388831_109384238_109379597_109374910_109370175_109365393_109360564_109355688_109350765_109345796_109340780_109335717_109330607_109325452_109320249_109315001_109309706_109304364_109298977_109293544_109288064_109282539_109276968_109271351_109265689_109259981_109254227_109248428_109242583_109236693_109230758_109224778_109218753_109212682_109206567_109200407_109194202_109187952_109181658_109175319_109168936_109162509_109156037_109149520_109142960_109136356_109129707_109123015_109116279_109109499_109102675_109095808_109088897_109081943_109074945_109067904_109060820_109053693_109046522_109039309_109032053_109024754_109017412_109010028_109002601_108995131_108987619_108980065_108972469_108964830_108957150_108949427_108941662_108933856_108926008_108918118_108910187_108902214_108894200_108886144_108878047_108869909_108861730_108853510_108845249_108836947_108828605_108820221_108811798_108803333_108794829_108786284_108777698_108769073_108760408_108751702_108742957_108734172_108725347_108716483_108707579_108698635_108689652_108680630_108671569_108662468_108653329_108644151_108634933_108625677_108616383_108607049_108597678_108588268_108578819_108569332_108559807_108550245_108540644_108531005_108521328_108511614_108501862_108492073_108482246_108472382_108462481_108452542_108442567_108432554_108422505_108412418_108402295_108392136_108381940_108371707_108361438_108351133_108340792_108330414_108320001_108309551_108299066_108288546_108277989_108267397_108256770_108246107_108235409_108224676_108213908_108203105_108192267_108181394_108170487_108159545_108148568_108137557_108126512_108115432_108104319_108093171_108081989_108070774_108059525_108048242_108036925_108025576_108014192_108002776,
  107991326_107979843_107968327_107956778_107945197_107933583_107921936_107910256_107898544_107886800_107875024_107863215_107851374_107839502_107827597_107815661_107803693_107791694_107779663_107767601_107755507_107743383_107731227_107719040_107706822_107694574_107682295_107669985_107657644_107645274_107632873_107620441_107607980_107595489_107582967_107570416_107557835_107545225_107532585_107519915_107507217_107494489_107481731_107468945_107456130_107443286_107430413_107417512_107404582_107391624_107378637_107365622_107352579_107339507_107326408_107313281_107300126_107286944_107273734_107260496_107247232_107233939_107220620_107207274_107193900_107180500_107167073_107153620_107140139_107126633_107113100_107099540_107085955_107072343_107058706_107045042_107031353_107017638_107003898_106990132_106976341_106962524_106948682_106934816_106920924_106907007_106893066_106879100_106865109_106851094_106837055_106822991_106808903_106794791_106780655_106766495_106752312_106738105_106723874_106709620_106695342_106681041_106666717_106652370_106638000_106623607_106609192_106594754_106580293_106565810_106551304_106536776_106522226_106507654_106493060_106478444_106463807_106449148_106434467_106419765_106405041_106390297_106375531_106360744_106345936_106331108_106316258_106301388_106286498_106271587_106256656_106241705_106226733_106211742_106196730_106181699_106166648_106151578_106136488_106121378_106106250_106091102_106075935_106060749_106045544_106030320_106015078_105999817_105984538_105969240_105953924_105938590_105923237_105907867_105892479_105877073_105861650_105846209_105830750_105815274_105799781_105784271_105768744_105753199_105737638_105722060_105706466_105690855_105675228_105659584_105643924_105628248_105612555_105596847_105581123_105565384_105549629_105533858_105518072_105502270_105486453_105470622_105454775_105438913_105423037_105407145_105391240_105375319_105359385_105343436_105327472_105311495_105295504_105279499_105263480_105247447_105231401_105215341_105199268_105183182_105167083_105150970_105134845_105118706_105102555_105086391_105070215_105054026_105037825_105021612_105005386_104989149_104972899_104956638_104940364_104924080_104907783_104891475_104875156_104858826_104842484_104826132_104809768_104793394_104777009_104760613_104744207_104727790_104711363_104694926_104678479_104662021_104645554_104629077_104612590_104596093_104579587_104563072_104546547_104530013_104513470_104496918_104480357_104463787_104447208_104430621_104414025_104397421_104380809_104364188_104347559_104330922_104314277_104297625_104280965_104264297,
  104247621_104230938_104214248_104197551_104180846_104164135_104147416_104130691_104113959_104097220_104080475_104063723_104046966_104030201_104013431_103996655_103979873_103963084_103946291_103929491_103912686_103895876_103879060_103862239_103845413_103828582_103811746_103794905_103778059_103761209_103744354_103727494_103710631_103693763_103676890_103660014_103643134_103626250_103609362_103592471_103575576_103558677_103541775_103524870_103507961_103491050_103474136_103457218_103440298_103423375_103406450_103389522_103372591_103355659_103338724_103321787_103304847_103287906_103270964_103254019_103237073_103220125_103203176_103186225_103169273_103152320_103135366_103118411_103101455_103084498_103067541_103050583_103033625_103016666_102999706_102982747_102965787_102948828_102931868_102914909_102897950_102880991_102864033_102847075_102830118_102813162_102796206_102779252_102762298_102745345_102728394_102711444_102694495_102677548_102660602_102643659_102626716_102609776_102592838_102575901_102558967_102542035_102525105_102508178_102491253_102474331_102457411_102440494_102423580_102406669_102389761_102372856_102355955_102339056_102322162_102305270_102288382_102271498_102254618_102237741_102220869_102204000_102187136_102170276_102153420_102136568_102119721_102102879_102086041_102069208_102052380_102035557_102018739_102001926_101985118_101968316_101951518_101934727_101917941_101901160_101884385_101867616_101850853_101834096_101817345_101800601_101783862_101767130_101750404_101733685_101716973_101700267_101683568_101666875_101650190_101633512_101616841_101600177_101583520_101566871_101550230_101533595_101516969_101500350_101483739_101467136_101450541_101433954_101417375_101400805_101384242_101367689_101351143_101334606_101318078_101301559_101285048_101268547_101252054_101235571_101219096_101202631_101186175_101169729_101153292_101136865_101120447_101104039_101087641_101071253_101054875_101038506_101022149_101005801_100989463_100973136_100956820_100940514_100924219_100907934_100891660_100875397_100859145_100842905_100826675_100810456_100794249_100778053_100761869_100745696_100729534_100713385_100697247_100681121_100665007_100648905_100632814_100616737_100600671_100584618_100568577_100552548_100536532_100520529_100504538_100488560_100472595_100456643_100440704_100424778_100408866_100392966_100377080_100361207_100345348_100329502_100313670_100297851_100282046_100266255_100250478_100234715_100218966_100203232_100187511_100171805_100156113_100140435_100124772_100109124_100093490_100077871_100062267_100046678_100031104_100015544,
  100000000_099984471_099968957_099953459_099937976_099922508_099907056_099891619_099876199_099860794_099845404_099830031_099814674_099799332_099784007_099768698_099753405_099738128_099722868_099707625_099692397_099677187_099661993_099646816_099631655_099616512_099601385_099586276_099571183_099556108_099541050_099526009_099510985_099495979_099480990_099466019_099451066_099436130_099421212_099406311_099391429_099376565_099361718_099346890_099332080_099317288_099302514_099287758_099273021_099258303_099243603_099228922_099214259_099199615_099184990_099170383_099155796_099141227_099126678_099112148_099097637_099083145_099068672_099054219_099039785_099025371_099010976_098996601_098982245_098967910_098953594_098939298_098925022_098910765_098896529_098882313_098868117_098853941_098839786_098825651_098811536_098797442_098783368_098769315_098755283_098741271_098727280_098713310_098699361_098685432_098671525_098657638_098643773_098629929_098616106_098602304_098588524_098574765_098561028_098547312_098533617_098519945_098506294_098492664_098479057_098465471_098451907_098438365_098424845_098411347_098397871_098384418_098370986_098357577_098344191_098330826_098317484_098304165_098290868_098277594_098264342_098251113_098237907_098224723_098211563_098198425_098185310_098172219_098159150_098146104_098133082_098120083_098107107_098094155_098081225_098068320_098055437_098042579_098029743_098016932_098004144_097991380_097978639_097965923_097953230_097940561_097927916_097915295_097902698_097890125_097877577_097865052_097852552_097840076_097827625_097815198_097802795_097790417_097778063_097765734_097753429_097741149_097728894_097716664_097704458_097692277_097680121_097667990_097655884_097643803_097631747_097619716_097607710_097595730_097583775_097571845_097559940_097548060_097536207_097524378_097512575_097500797_097489046_097477319_097465619_097453944_097442294_097430671_097419073_097407501_097395955_097384435_097372941_097361473_097350032_097338616_097327226_097315862_097304525_097293214_097281929_097270671_097259439_097248233_097237054_097225901_097214775_097203675_097192602_097181555_097170535_097159542_097148576_097137636_097126723_097115837_097104978_097094145_097083340_097072562_097061810_097051086_097040389_097029719_097019076_097008460_096997872_096987310_096976776_096966270_096955790_096945338_096934914_096924517_096914147_096903805_096893490_096883203_096872944_096862712_096852508_096842331_096832183_096822062_096811969_096801903_096791866_096781856_096771874_096761920_096751995_096742097_096732227_096722385_096712572_096702786,
  96693028_096683299_096673598_096663925_096654280_096644664_096635076_096625516_096615985_096606482_096597007_096587561_096578143_096568754_096559393_096550061_096540757_096531482_096522235_096513017_096503828_096494668_096485536_096476433_096467358_096458313_096449296_096440308_096431348_096422418_096413517_096404644_096395800_096386986_096378200_096369443_096360716_096352017_096343347_096334707_096326095_096317513_096308960_096300436_096291941_096283475_096275038_096266631_096258253_096249905_096241585_096233295_096225034_096216803_096208601_096200428_096192284_096184171_096176086_096168031_096160005_096152009_096144043_096136106_096128198_096120320_096112472_096104653_096096863_096089104_096081374_096073673_096066002_096058361_096050750_096043168_096035616_096028094_096020601_096013138_096005705_095998302_095990929_095983585_095976271_095968987_095961733_095954508_095947314_095940149_095933014_095925909_095918834_095911789_095904774_095897789_095890833_095883908_095877013_095870147_095863312_095856507_095849731_095842986_095836270_095829585_095822930_095816304_095809709_095803144_095796609_095790104_095783629_095777184_095770769_095764385_095758030_095751706_095745412_095739147_095732913_095726709_095720536_095714392_095708279_095702195_095696142_095690119_095684127_095678164_095672232_095666329_095660457_095654616_095648804_095643023_095637271_095631550_095625860_095620199_095614569_095608968_095603398_095597859_095592349_095586870_095581421_095576002_095570613_095565255_095559927_095554629_095549361_095544124_095538917_095533740_095528593_095523476_095518390_095513334_095508308_095503313_095498347_095493412_095488507_095483632_095478788_095473973_095469189_095464435_095459712_095455018_095450355_095445722_095441119_095436546_095432003_095427491_095423009_095418557_095414135_095409743_095405382_095401050_095396749_095392478_095388237_095384026_095379845_095375695_095371574_095367484_095363423_095359393_095355393_095351423_095347483_095343573_095339693_095335843_095332024_095328234_095324474_095320745_095317045_095313375_095309735_095306126_095302546_095298996_095295476_095291986_095288526_095285096_095281696_095278326_095274986_095271675_095268395_095265144_095261923_095258732_095255571_095252439_095249338_095246266_095243224_095240211_095237229_095234276_095231353_095228460_095225596_095222762_095219958_095217183_095214438_095211723_095209037_095206381_095203754_095201157_095198590_095196052_095193543_095191065_095188615_095186195_095183805_095181444_095179113_095176811_095174538_095172295_095170081_095167896,
  95165741_095163615_095161519_095159451_095157413_095155405_095153425_095151475_095149554_095147662_095145799_095143965_095142161_095140386_095138639_095136922_095135234_095133575_095131945_095130343_095128771_095127228_095125714_095124228_095122772_095121344_095119945_095118575_095117234_095115922_095114638_095113383_095112157_095110960_095109791_095108651_095107540_095106457_095105402_095104377_095103380_095102411_095101471_095100559_095099676_095098821_095097995_095097197_095096427_095095686_095094973_095094288_095093632_095093003_095092403_095091831_095091288_095090772_095090285_095089825_095089394_095088991_095088616_095088268_095087949_095087658_095087394_095087158_095086951_095086771_095086619_095086494_095086398_095086329_095086287_095086274_095086288_095086329_095086399_095086495_095086620_095086772_095086951_095087157_095087392_095087653_095087942_095088258_095088601_095088972_095089370_095089795_095090247_095090727_095091233_095091767_095092327_095092915_095093529_095094171_095094840_095095535_095096257_095097006_095097782_095098585_095099414_095100270_095101153_095102063_095102999_095103961_095104950_095105966_095107008_095108077_095109172_095110293_095111441_095112615_095113815_095115042_095116295_095117574_095118879_095120210_095121568_095122951_095124360_095125796_095127257_095128744_095130257_095131796_095133361_095134951_095136568_095138210_095139877_095141570_095143289_095145034_095146803_095148599_095150420_095152266_095154137_095156034_095157957_095159904_095161877_095163875_095165898_095167946_095170019_095172117_095174241_095176389_095178562_095180760_095182983_095185231_095187504_095189801_095192123_095194470_095196841_095199237_095201657_095204102_095206571_095209065_095211583_095214126_095216693_095219284_095221899_095224539_095227202_095229890_095232602_095235338_095238098_095240882_095243690_095246521_095249377_095252256_095255159_095258086_095261036_095264010_095267008_095270029_095273074_095276142_095279233_095282348_095285487_095288648_095291833_095295041_095298272_095301526_095304804_095308104_095311428_095314774_095318143_095321536_095324951_095328388_095331849_095335332_095338838_095342367_095345918_095349491_095353087_095356706_095360347_095364010_095367695_095371403_095375133_095378886_095382660_095386456_095390275_095394115_095397978_095401862_095405768_095409696_095413646_095417617_095421611_095425625_095429662_095433720_095437799_095441900_095446022_095450166_095454331_095458517_095462725_095466953_095471203_095475474_095479766_095484079_095488413_095492768_095497143_095501540,
  95505957_095510395_095514853_095519333_095523832_095528353_095532894_095537455_095542036_095546638_095551261_095555903_095560566_095565248_095569951_095574674_095579417_095584180_095588963_095593766_095598588_095603431_095608293_095613174_095618075_095622996_095627937_095632896_095637876_095642874_095647892_095652930_095657986_095663062_095668156_095673270_095678403_095683555_095688726_095693915_095699124_095704351_095709597_095714862_095720145_095725447_095730768_095736107_095741464_095746840_095752234_095757646_095763077_095768526_095773993_095779478_095784981_095790502_095796041_095801598_095807172_095812765_095818375_095824003_095829648_095835312_095840992_095846690_095852406_095858139_095863889_095869656_095875441_095881243_095887062_095892898_095898751_095904621_095910508_095916412_095922332_095928270_095934224_095940194_095946182_095952186_095958206_095964243_095970296_095976365_095982451_095988553_095994671_096000806_096006956_096013123_096019305_096025504_096031718_096037948_096044194_096050455_096056732_096063025_096069333_096075657_096081997_096088351_096094721_096101107_096107507_096113923_096120354_096126800_096133261_096139736_096146227_096152733_096159254_096165789_096172339_096178903_096185483_096192076_096198685_096205307_096211944_096218596_096225262_096231941_096238635_096245344_096252066_096258802_096265552_096272317_096279094_096285886_096292692_096299511_096306344_096313190_096320050_096326923_096333810_096340710_096347624_096354550_096361490_096368443_096375410_096382389_096389381_096396386_096403404_096410435_096417478_096424535_096431603_096438685_096445779_096452886_096460005_096467136_096474280_096481436_096488604_096495784_096502977_096510181_096517398_096524626_096531866_096539119_096546383_096553658_096560946_096568245_096575555_096582877_096590211_096597556_096604912_096612280_096619659_096627049_096634450_096641862_096649285_096656719_096664164_096671620_096679087_096686565_096694053_096701551_096709061_096716581_096724111_096731652_096739203_096746764_096754336_096761918_096769510_096777112_096784724_096792346_096799978_096807620_096815272_096822933_096830605_096838285_096845976_096853676_096861385_096869104_096876832_096884569_096892316_096900072_096907837_096915611_096923395_096931187_096938988_096946798_096954617_096962445_096970281_096978126_096985979_096993841_097001712_097009591_097017479_097025374_097033278_097041190_097049111_097057039_097064976_097072920_097080873_097088833_097096801_097104777_097112761_097120752_097128751_097136758_097144772_097152793_097160822_097168858,
  97176902_097184952_097193010_097201075_097209147_097217226_097225312_097233405_097241505_097249612_097257725_097265845_097273971_097282105_097290244_097298390_097306543_097314702_097322867_097331038_097339216_097347400_097355590_097363785_097371987_097380195_097388409_097396628_097404853_097413084_097421321_097429563_097437810_097446063_097454322_097462586_097470855_097479130_097487409_097495694_097503984_097512279_097520579_097528884_097537194_097545509_097553828_097562153_097570481_097578815_097587153_097595496_097603843_097612194_097620550_097628910_097637274_097645643_097654015_097662392_097670773_097679157_097687546_097695939_097704335_097712735_097721139_097729546_097737957_097746372_097754790_097763212_097771637_097780065_097788496_097796931_097805369_097813810_097822254_097830701_097839152_097847605_097856061_097864519_097872981_097881445_097889912_097898381_097906853_097915327_097923804_097932284_097940765_097949249_097957735_097966224_097974714_097983206_097991701_098000197_098008696_098017196_098025698_098034202_098042707_098051215_098059723_098068234_098076746_098085259_098093774_098102290_098110807_098119326_098127845_098136366_098144888_098153411_098161935_098170460_098178986_098187513_098196040_098204568_098213097_098221627_098230157_098238687_098247219_098255750_098264282_098272814_098281347_098289879_098298412_098306945_098315478_098324011_098332544_098341077_098349610_098358143_098366675_098375207_098383739_098392271_098400802_098409332_098417862_098426392_098434921_098443449_098451976_098460503_098469029_098477553_098486077_098494600_098503122_098511643_098520163_098528682_098537199_098545715_098554230_098562744_098571256_098579766_098588275_098596783_098605289_098613793_098622296_098630796_098639295_098647792_098656288_098664781_098673272_098681761_098690249_098698734_098707216_098715697_098724175_098732651_098741125_098749596_098758065_098766531_098774995_098783456_098791914_098800370_098808822_098817272_098825720_098834164_098842605_098851044_098859479_098867911_098876341_098884767_098893189_098901609_098910025_098918438_098926847_098935253_098943656_098952055_098960450_098968842_098977230_098985614_098993994_099002371_099010744_099019113_099027478_099035839_099044196_099052549_099060897_099069242_099077582_099085918_099094250_099102577_099110900_099119219_099127533_099135842_099144147_099152447_099160743_099169034_099177320_099185601_099193878_099202149_099210416_099218678_099226935_099235186_099243433_099251674_099259910_099268141_099276367_099284587_099292802_099301012_099309216_099317415,
  99325608_099333795_099341977_099350153_099358324_099366489_099374648_099382801_099390948_099399090_099407225_099415355_099423478_099431596_099439707_099447812_099455911_099464003_099472090_099480170_099488243_099496311_099504371_099512426_099520473_099528515_099536549_099544577_099552598_099560613_099568620_099576621_099584615_099592603_099600583_099608556_099616522_099624482_099632434_099640379_099648316_099656247_099664170_099672086_099679995_099687897_099695791_099703677_099711556_099719428_099727292_099735148_099742997_099750838_099758671_099766497_099774315_099782125_099789927_099797721_099805507_099813285_099821056_099828818_099836572_099844318_099852056_099859786_099867507_099875220_099882925_099890622_099898310_099905990_099913661_099921324_099928978_099936624_099944261_099951889_099959509_099967120_099974722_099982316_099989901_099997477_100005044_100012602_100020151_100027691_100035222_100042744_100050257_100057761_100065256_100072741_100080218_100087685_100095142_100102591_100110030_100117459_100124879_100132290_100139691_100147083_100154465_100161838_100169201_100176554_100183897_100191231_100198555_100205869_100213174_100220468_100227753_100235027_100242292_100249547_100256791_100264026_100271251_100278465_100285669_100292863_100300047_100307221_100314384_100321537_100328680_100335812_100342934_100350046_100357147_100364237_100371317_100378387_100385445_100392494_100399531_100406558_100413574_100420580_100427574_100434558_100441531_100448494_100455445_100462385_100469315_100476233_100483141_100490037_100496923_100503797_100510660_100517512_100524353_100531183_100538002_100544809_100551605_100558389_100565163_100571924_100578675_100585414_100592142_100598858_100605563_100612256_100618937_100625607_100632266_100638912_100645547_100652171_100658782_100665382_100671970_100678547_100685111_100691664_100698205_100704734_100711251_100717756_100724249_100730730_100737199_100743656_100750100_100756533_100762954_100769362_100775759_100782143_100788515_100794874_100801222_100807557_100813879_100820190_100826488_100832774_100839047_100845308_100851556_100857792_100864015_100870226_100876424_100882610_100888783_100894943_100901091_100907226_100913349_100919458_100925555_100931639_100937711_100943770_100949815_100955848_100961868_100967876_100973870_100979851_100985820_100991775_100997718_101003647_101009564_101015467_101021357_101027235_101033099_101038950_101044787_101050612_101056423_101062222_101068007_101073778_101079537_101085282_101091014_101096732_101102438_101108129_101113808_101119473_101125124_101130762,
  101136387_101141998_101147596_101153180_101158751_101164308_101169851_101175381_101180898_101186400_101191889_101197365_101202827_101208275_101213709_101219130_101224536_101229929_101235309_101240674_101246026_101251364_101256688_101261998_101267295_101272577_101277846_101283100_101288341_101293568_101298780_101303979_101309164_101314335_101319491_101324634_101329763_101334877_101339978_101345064_101350137_101355195_101360239_101365269_101370284_101375286_101380273_101385246_101390205_101395150_101400080_101404996_101409898_101414786_101419659_101424518_101429362_101434193_101439009_101443810_101448597_101453370_101458129_101462873_101467602_101472317_101477018_101481704_101486376_101491033_101495676_101500304_101504918_101509517_101514102_101518672_101523228_101527769_101532295_101536807_101541304_101545787_101550255_101554708_101559147_101563571_101567981_101572375_101576755_101581121_101585472_101589808_101594129_101598435_101602727_101607004_101611267_101615514_101619747_101623965_101628169_101632357_101636531_101640690_101644834_101648963_101653078_101657177_101661262_101665332_101669387_101673427_101677453_101681463_101685459_101689439_101693405_101697356_101701292_101705213_101709119_101713010_101716887_101720748_101724594_101728426_101732242_101736044_101739831_101743602_101747359_101751100_101754827_101758539_101762235_101765917_101769584_101773235_101776872_101780494_101784100_101787692_101791268_101794830_101798376_101801908_101805424_101808925_101812412_101815883_101819339_101822780_101826206_101829617_101833013_101836394_101839760_101843111_101846446_101849767_101853072_101856363_101859638_101862898_101866143_101869373_101872588_101875788_101878973_101882142_101885297_101888436_101891561_101894670_101897764_101900843_101903907_101906956_101909989_101913008_101916011_101919000_101921973_101924931_101927874_101930802_101933715_101936613_101939496_101942363_101945216_101948053_101950875_101953682_101956474_101959251_101962013_101964760_101967492_101970208_101972910_101975596_101978267_101980924_101983565_101986191_101988802_101991398_101993979_101996545_101999095_102001631_102004151_102006657_102009147_102011623_102014083_102016529_102018959_102021374_102023774_102026160_102028530_102030885_102033225_102035550_102037860_102040155_102042435_102044700_102046950_102049185_102051405_102053611_102055801_102057976_102060136_102062281_102064411_102066527_102068627_102070713_102072783_102074839_102076879_102078905_102080916_102082912_102084893_102086859_102088810_102090746_102092668_102094574_102096466_102098343,
  102100205_102102052_102103885_102105702_102107505_102109293_102111066_102112824_102114568_102116296_102118010_102119709_102121394_102123063_102124718_102126359_102127984_102129595_102131191_102132772_102134339_102135890_102137428_102138950_102140458_102141951_102143430_102144894_102146343_102147778_102149198_102150604_102151995_102153371_102154733_102156080_102157413_102158731_102160035_102161324_102162598_102163858_102165104_102166335_102167552_102168754_102169942_102171115_102172274_102173418_102174549_102175664_102176765_102177852_102178925_102179983_102181027_102182057_102183072_102184073_102185060_102186032_102186990_102187934_102188863_102189779_102190680_102191567_102192440_102193298_102194143_102194973_102195789_102196591_102197379_102198153_102198912_102199658_102200390_102201107_102201811_102202500_102203175_102203837_102204484_102205118_102205737_102206343_102206934_102207512_102208076_102208626_102209162_102209684_102210192_102210687_102211167_102211634_102212087_102212526_102212952_102213364_102213762_102214146_102214517_102214874_102215217_102215547_102215863_102216165_102216454_102216729_102216991_102217239_102217473_102217694_102217901_102218095_102218276_102218443_102218596_102218737_102218863_102218976_102219076_102219163_102219236_102219296_102219342_102219376_102219396_102219402_102219396_102219376_102219343_102219297_102219237_102219165_102219079_102218980_102218868_102218743_102218605_102218454_102218289_102218112_102217922_102217718_102217502_102217273_102217031_102216776_102216508_102216227_102215933_102215627_102215307_102214975_102214630_102214272_102213902_102213518_102213122_102212714_102212292_102211858_102211412_102210953_102210481_102209996_102209499_102208990_102208468_102207933_102207386_102206827_102206255_102205670_102205073_102204464_102203843_102203209_102202563_102201904_102201233_102200550_102199855_102199147_102198427_102197695_102196951_102196195_102195427_102194646_102193854_102193049_102192232_102191404_102190563_102189710_102188846_102187969_102187081_102186180_102185268_102184344_102183408_102182460_102181501_102180530_102179547_102178552_102177545_102176527_102175497_102174456_102173403_102172338_102171262_102170174_102169075_102167964_102166842_102165708_102164563_102163407_102162239_102161059_102159868_102158666_102157453_102156229_102154993_102153746_102152487_102151218_102149937_102148645_102147342_102146028_102144703_102143367_102142020_102140661_102139292_102137912_102136521_102135119_102133706_102132282_102130848_102129402_102127946_102126479_102125001_102123513,
  102122014_102120504_102118983_102117452_102115910_102114358_102112795_102111221_102109637_102108043_102106438_102104823_102103197_102101561_102099914_102098257_102096590_102094913_102093225_102091527_102089819_102088100_102086372_102084633_102082884_102081125_102079356_102077577_102075788_102073989_102072179_102070360_102068531_102066692_102064844_102062985_102061117_102059238_102057350_102055453_102053545_102051628_102049701_102047765_102045818_102043863_102041897_102039923_102037938_102035944_102033941_102031928_102029906_102027874_102025833_102023783_102021723_102019655_102017576_102015489_102013392_102011286_102009171_102007047_102004914_102002772_102000620_101998460_101996290_101994112_101991925_101989728_101987523_101985309_101983086_101980854_101978614_101976364_101974106_101971840_101969564_101967280_101964987_101962686_101960376_101958057_101955730_101953395_101951051_101948698_101946337_101943968_101941590_101939204_101936810_101934407_101931996_101929577_101927149_101924714_101922270_101919818_101917358_101914890_101912414_101909930_101907438_101904938_101902430_101899914_101897390_101894858_101892318_101889771_101887216_101884653_101882082_101879504_101876918_101874325_101871723_101869114_101866498_101863874_101861243_101858604_101855957_101853303_101850642_101847974_101845298_101842614_101839924_101837226_101834521_101831809_101829089_101826363_101823629_101820888_101818140_101815386_101812624_101809855_101807079_101804296_101801506_101798710_101795906_101793096_101790279_101787455_101784625_101781787_101778944_101776093_101773236_101770372_101767502_101764625_101761741_101758851_101755955_101753052_101750143_101747227_101744305_101741377_101738442_101735502_101732555_101729601_101726642_101723676_101720705_101717727_101714743_101711753_101708757_101705755_101702747_101699733_101696714_101693688_101690657_101687619_101684576_101681528_101678473_101675413_101672347_101669275_101666198_101663115_101660027_101656933_101653834_101650729_101647618_101644503_101641382_101638255_101635123_101631986_101628844_101625696_101622543_101619385_101616222_101613053_101609879_101606701_101603517_101600328_101597135_101593936_101590732_101587524_101584310_101581092_101577869_101574641_101571408_101568170_101564928_101561681_101558429_101555173_101551912_101548647_101545377_101542102_101538823_101535540_101532252_101528960_101525663_101522362_101519056_101515747_101512433_101509114_101505792_101502465_101499134_101495799_101492460_101489117_101485770_101482419_101479063_101475704_101472341_101468974_101465603_101462228,
  101458850_101455467_101452081_101448691_101445298_101441900_101438499_101435095_101431686_101428275_101424859_101421440_101418018_101414592_101411163_101407730_101404294_101400855_101397412_101393966_101390516_101387064_101383608_101380149_101376687_101373221_101369753_101366282_101362807_101359329_101355849_101352365_101348879_101345390_101341897_101338402_101334904_101331403_101327900_101324394_101320884_101317373_101313858_101310341_101306822_101303299_101299775_101296247_101292718_101289185_101285651_101282113_101278574_101275032_101271488_101267941_101264392_101260841_101257288_101253732_101250174_101246614_101243052_101239488_101235922_101232354_101228783_101225211_101221637_101218061_101214483_101210903_101207321_101203737_101200152_101196565_101192976_101189385_101185793_101182199_101178603_101175006_101171407_101167806_101164204_101160601_101156996_101153390_101149782_101146172_101142562_101138950_101135336_101131722_101128106_101124489_101120870_101117251_101113630_101110008_101106385_101102761_101099136_101095510_101091883_101088255_101084626_101080995_101077365_101073733_101070100_101066466_101062832_101059197_101055561_101051925_101048287_101044649_101041011_101037372_101033732_101030091_101026450_101022809_101019167_101015525_101011882_101008239_101004595_101000951_100997306_100993662_100990017_100986371_100982726_100979080_100975434_100971788_100968142_100964496_100960849_100957203_100953556_100949910_100946263_100942617_100938970_100935324_100931678_100928031_100924385_100920740_100917094_100913449_100909804_100906159_100902514_100898870_100895226_100891583_100887940_100884297_100880655_100877013_100873372_100869731_100866091_100862452_100858813_100855174_100851537_100847900_100844263_100840628_100836993_100833359_100829725_100826093_100822461_100818830_100815200_100811571_100807943_100804316_100800690_100797065_100793441_100789818_100786196_100782575_100778955_100775336_100771719_100768102_100764487_100760873_100757261_100753649_100750039_100746430_100742823_100739217_100735612_100732009_100728407_100724807_100721208_100717611_100714015_100710421_100706828_100703237_100699648_100696060_100692474_100688889_100685307_100681726_100678146_100674569_100670993_100667419_100663847_100660277_100656709_100653142_100649578_100646015_100642455_100638896_100635340_100631785_100628233_100624683_100621134_100617588_100614044_100610502_100606963_100603425_100599890_100596357_100592827_100589298_100585772_100582248_100578727_100575208_100571692_100568177_100564666_100561156_100557650_100554145_100550644_100547144,
  100543648_100540154_100536662_100533173_100529687_100526204_100522723_100519245_100515769_100512297_100508827_100505360_100501895_100498434_100494975_100491519_100488067_100484617_100481170_100477725_100474284_100470846_100467411_100463979_100460550_100457124_100453701_100450281_100446864_100443451_100440040_100436633_100433229_100429828_100426431_100423036_100419645_100416258_100412873_100409492_100406114_100402740_100399369_100396001_100392637_100389276_100385919_100382565_100379215_100375868_100372525_100369185_100365849_100362516_100359187_100355862_100352540_100349222_100345907_100342597_100339290_100335986_100332687_100329391_100326099_100322811_100319527_100316246_100312969_100309697_100306428_100303163_100299902_100296644_100293391_100290142_100286897_100283655_100280418_100277185_100273956_100270731_100267510_100264293_100261080_100257871_100254667_100251466_100248270_100245078_100241891_100238707_100235528_100232353_100229182_100226016_100222854_100219696_100216542_100213393_100210249_100207108_100203973_100200841_100197714_100194591_100191473_100188360_100185251_100182146_100179046_100175950_100172859_100169773_100166691_100163614_100160541_100157473_100154410_100151351_100148297_100145248_100142203_100139164_100136128_100133098_100130072_100127052_100124035_100121024_100118018_100115016_100112019_100109027_100106040_100103058_100100081_100097109_100094141_100091179_100088221_100085269_100082321_100079379_100076441_100073509_100070581_100067659_100064741_100061829_100058922_100056020_100053123_100050231_100047344_100044463_100041586_100038715_100035849_100032988_100030133_100027282_100024437_100021597_100018762_100015933_100013109_100010290_100007477_100004668_100001866_099999068_099996276_099993489_099990708_099987932_099985161_099982396_099979636_099976882_099974133_099971390_099968652_099965919_099963193_099960471_099957755_099955045_099952340_099949641_099946947_099944259_099941576_099938899_099936228_099933562_099930902_099928247_099925598_099922955_099920317_099917685_099915059_099912439_099909824_099907215_099904611_099902014_099899422_099896836_099894255_099891681_099889112_099886549_099883991_099881440_099878894_099876354_099873820_099871292_099868770_099866254_099863743_099861238_099858740_099856247_099853760_099851279_099848803_099846334_099843871_099841414_099838962_099836517_099834078_099831644_099829217_099826795_099824380_099821970_099819567_099817170_099814778_099812393_099810014_099807641_099805273_099802912_099800557_099798209_099795866_099793529_099791199_099788874_099786556_099784244,
  99781938_099779638_099777344_099775057_099772775_099770500_099768231_099765968_099763712_099761461_099759217_099756979_099754747_099752522_099750302_099748089_099745882_099743682_099741487_099739299_099737117_099734942_099732773_099730610_099728453_099726303_099724159_099722021_099719889_099717764_099715645_099713533_099711427_099709327_099707234_099705146_099703066_099700991_099698923_099696862_099694806_099692757_099690715_099688679_099686649_099684626_099682609_099680598_099678594_099676596_099674605_099672620_099670642_099668670_099666704_099664745_099662793_099660846_099658907_099656973_099655046_099653126_099651212_099649305_099647404_099645509_099643621_099641740_099639865_099637996_099636134_099634278_099632429_099630587_099628751_099626921_099625098_099623281_099621471_099619668_099617871_099616080_099614296_099612519_099610748_099608984_099607226_099605475_099603730_099601992_099600260_099598535_099596816_099595104_099593399_099591700_099590008_099588322_099586643_099584970_099583304_099581644_099579991_099578345_099576705_099575072_099573445_099571825_099570211_099568604_099567004_099565410_099563823_099562242_099560668_099559100_099557539_099555985_099554437_099552896_099551361_099549833_099548311_099546796_099545288_099543786_099542291_099540803_099539320_099537845_099536376_099534914_099533458_099532009_099530567_099529131_099527701_099526278_099524862_099523453_099522050_099520653_099519263_099517880_099516503_099515133_099513769_099512412_099511062_099509718_099508381_099507050_099505726_099504408_099503097_099501792_099500495_099499203_099497918_099496640_099495368_099494103_099492845_099491593_099490347_099489108_099487876_099486650_099485431_099484218_099483012_099481812_099480619_099479432_099478252_099477078_099475911_099474751_099473597_099472449_099471308_099470174_099469046_099467924_099466809_099465701_099464599_099463503_099462414_099461332_099460256_099459186_099458123_099457067_099456017_099454973_099453936_099452905_099451881_099450863_099449852_099448847_099447848_099446856_099445871_099444892_099443919_099442953_099441993_099441039_099440092_099439152_099438218_099437290_099436368_099435453_099434545_099433643_099432747_099431857_099430974_099430097_099429227_099428363_099427505_099426654_099425809_099424970_099424138_099423312_099422493_099421679_099420872_099420072_099419277_099418489_099417707_099416932_099416162_099415400_099414643_099413892_099413148_099412410_099411679_099410953_099410234_099409521_099408815_099408114_099407420_099406732_099406050_099405375_099404705_099404042,
  99403385_099402734_099402089_099401451_099400818_099400192_099399572_099398958_099398350_099397749_099397153_099396564_099395980_099395403_099394832_099394267_099393708_099393155_099392608_099392067_099391533_099391004_099390481_099389965_099389454_099388950_099388451_099387959_099387472_099386991_099386517_099386048_099385586_099385129_099384678_099384234_099383795_099383362_099382935_099382514_099382099_099381689_099381286_099380889_099380497_099380111_099379732_099379358_099378989_099378627_099378271_099377920_099377575_099377236_099376903_099376575_099376254_099375938_099375628_099375323_099375025_099374732_099374445_099374163_099373888_099373618_099373353_099373095_099372842_099372594_099372353_099372117_099371887_099371662_099371443_099371229_099371022_099370819_099370623_099370432_099370246_099370066_099369892_099369723_099369560_099369402_099369250_099369103_099368962_099368827_099368696_099368572_099368452_099368338_099368230_099368127_099368030_099367937_099367851_099367769_099367694_099367623_099367558_099367498_099367443_099367394_099367350_099367312_099367279_099367251_099367228_099367211_099367199_099367192_099367191_099367194_099367203_099367217_099367237_099367261_099367291_099367326_099367366_099367411_099367461_099367517_099367577_099367643_099367714_099367790_099367871_099367957_099368048_099368144_099368245_099368352_099368463_099368579_099368700_099368826_099368958_099369094_099369235_099369381_099369532_099369688_099369849_099370014_099370185_099370360_099370541_099370726_099370916_099371111_099371310_099371515_099371724_099371938_099372157_099372381_099372609_099372842_099373080_099373322_099373570_099373821_099374078_099374339_099374605_099374876_099375151_099375431_099375715_099376004_099376298_099376596_099376899_099377206_099377518_099377834_099378155_099378481_099378810_099379145_099379484_099379827_099380175_099380527_099380883_099381244_099381610_099381980_099382354_099382732_099383115_099383502_099383894_099384290_099384690_099385094_099385503_099385916_099386333_099386754_099387180_099387610_099388044_099388482_099388925_099389371_099389822_099390277_099390736_099391199_099391666_099392138_099392613_099393092_099393576_099394063_099394555_099395051_099395550_099396054_099396561_099397073_099397588_099398107_099398631_099399158_099399689_099400224_099400763_099401305_099401852_099402402_099402957_099403515_099404076_099404642_099405211_099405784_099406361_099406942_099407526_099408114_099408706_099409301_099409900_099410503_099411109_099411719_099412332_099412950_099413570_099414195,
  99414822_099415454_099416089_099416727_099417369_099418014_099418663_099419316_099419972_099420631_099421293_099421959_099422629_099423302_099423978_099424658_099425341_099426027_099426716_099427409_099428105_099428805_099429508_099430214_099430923_099431635_099432351_099433070_099433792_099434517_099435245_099435976_099436711_099437449_099438190_099438933_099439680_099440430_099441183_099441940_099442699_099443461_099444226_099444994_099445765_099446539_099447316_099448096_099448879_099449664_099450453_099451244_099452038_099452835_099453635_099454438_099455244_099456052_099456863_099457677_099458493_099459313_099460135_099460960_099461787_099462617_099463450_099464285_099465123_099465964_099466807_099467653_099468501_099469352_099470206_099471062_099471921_099472782_099473645_099474511_099475380_099476251_099477124_099478000_099478878_099479759_099480642_099481527_099482415_099483305_099484198_099485092_099485989_099486889_099487790_099488694_099489600_099490509_099491419_099492332_099493247_099494164_099495083_099496005_099496928_099497854_099498782_099499711_099500643_099501577_099502513_099503451_099504391_099505334_099506278_099507224_099508172_099509122_099510074_099511027_099511983_099512941_099513900_099514862_099515825_099516790_099517757_099518726_099519696_099520668_099521642_099522618_099523596_099524575_099525556_099526539_099527523_099528509_099529497_099530486_099531477_099532470_099533464_099534460_099535457_099536456_099537456_099538458_099539462_099540467_099541473_099542481_099543491_099544502_099545514_099546528_099547543_099548560_099549577_099550597_099551617_099552639_099553663_099554687_099555713_099556740_099557769_099558799_099559830_099560862_099561895_099562930_099563966_099565003_099566041_099567080_099568120_099569162_099570205_099571248_099572293_099573339_099574386_099575434_099576483_099577533_099578584_099579636_099580689_099581743_099582798_099583853_099584910_099585968_099587026_099588085_099589146_099590207_099591269_099592331_099593395_099594459_099595524_099596590_099597657_099598724_099599792_099600861_099601930_099603000_099604071_099605143_099606215_099607288_099608361_099609435_099610509_099611585_099612660_099613737_099614813_099615891_099616969_099618047_099619126_099620205_099621285_099622365_099623446_099624527_099625608_099626690_099627772_099628855_099629938_099631021_099632105_099633189_099634273_099635357_099636442_099637527_099638613_099639698_099640784_099641870_099642956_099644043_099645129_099646216_099647303_099648390_099649477_099650564_099651651_099652739,
  99653826_099654914_099656001_099657089_099658177_099659264_099660352_099661439_099662527_099663614_099664702_099665789_099666877_099667964_099669051_099670138_099671225_099672311_099673398_099674484_099675571_099676657_099677742_099678828_099679913_099680998_099682083_099683168_099684252_099685336_099686420_099687503_099688586_099689669_099690751_099691833_099692915_099693996_099695077_099696157_099697237_099698317_099699396_099700474_099701553_099702630_099703707_099704784_099705860_099706936_099708011_099709085_099710159_099711233_099712305_099713377_099714449_099715520_099716590_099717660_099718728_099719797_099720864_099721931_099722997_099724063_099725127_099726191_099727254_099728317_099729379_099730439_099731499_099732559_099733617_099734675_099735731_099736787_099737842_099738896_099739949_099741002_099742053_099743104_099744153_099745202_099746249_099747296_099748342_099749386_099750430_099751473_099752514_099753555_099754594_099755633_099756670_099757706_099758742_099759776_099760809_099761841_099762872_099763901_099764930_099765957_099766983_099768008_099769032_099770054_099771075_099772095_099773114_099774132_099775148_099776163_099777177_099778189_099779201_099780210_099781219_099782226_099783232_099784237_099785240_099786241_099787242_099788241_099789238_099790234_099791229_099792223_099793214_099794205_099795194_099796181_099797167_099798152_099799135_099800116_099801096_099802074_099803051_099804027_099805000_099805972_099806943_099807912_099808879_099809845_099810809_099811772_099812733_099813692_099814650_099815606_099816560_099817513_099818463_099819413_099820360_099821306_099822250_099823192_099824133_099825071_099826008_099826944_099827877_099828809_099829738_099830666_099831593_099832517_099833440_099834360_099835279_099836196_099837111_099838024_099838936_099839845_099840753_099841658_099842562_099843464_099844363_099845261_099846157_099847051_099847943_099848833_099849721_099850607_099851491_099852373_099853253_099854130_099855006_099855880_099856752_099857621_099858489_099859355_099860218_099861079_099861939_099862796_099863651_099864503_099865354_099866203_099867049_099867893_099868735_099869575_099870413_099871249_099872082_099872913_099873742_099874569_099875393_099876216_099877036_099877853_099878669_099879482_099880293_099881102_099881908_099882712_099883514_099884314_099885111_099885906_099886698_099887488_099888276_099889062_099889845_099890626_099891404_099892180_099892954_099893725_099894494_099895261_099896025_099896787_099897546_099898303_099899057_099899809_099900559_099901306,
  99902050_099902792_099903532_099904269_099905004_099905736_099906466_099907193_099907918_099908640_099909360_099910077_099910791_099911504_099912213_099912920_099913625_099914326_099915026_099915722_099916417_099917108_099917797_099918484_099919167_099919848_099920527_099921203_099921876_099922547_099923215_099923881_099924543_099925203_099925861_099926516_099927168_099927817_099928464_099929108_099929750_099930389_099931025_099931658_099932289_099932917_099933542_099934164_099934784_099935401_099936016_099936627_099937236_099937842_099938445_099939046_099939644_099940239_099940831_099941421_099942008_099942592_099943173_099943751_099944327_099944900_099945470_099946037_099946601_099947163_099947722_099948277_099948831_099949381_099949928_099950473_099951015_099951554_099952090_099952623_099953153_099953681_099954205_099954727_099955246_099955762_099956275_099956785_099957293_099957797_099958299_099958797_099959293_099959786_099960276_099960763_099961247_099961729_099962207_099962682_099963155_099963624_099964091_099964555_099965016_099965473_099965928_099966380_099966829_099967275_099967718_099968159_099968596_099969030_099969461_099969890_099970315_099970737_099971157_099971573_099971987_099972397_099972804_099973209_099973611_099974009_099974405_099974797_099975187_099975573_099975957_099976337_099976715_099977090_099977461_099977830_099978195_099978558_099978917_099979274_099979627_099979978_099980325_099980670_099981011_099981350_099981685_099982017_099982347_099982673_099982996_099983316_099983634_099983948_099984259_099984567_099984872_099985174_099985473_099985769_099986062_099986352_099986639_099986922_099987203_099987481_099987755_099988027_099988296_099988561_099988824_099989083_099989339_099989593_099989843_099990090_099990334_099990575_099990813_099991048_099991280_099991509_099991735_099991958_099992177_099992394_099992608_099992818_099993026_099993230_099993432_099993630_099993825_099994018_099994207_099994393_099994576_099994756_099994933_099995107_099995278_099995445_099995610_099995772_099995931_099996086_099996239_099996388_099996535_099996678_099996819_099996956_099997090_099997221_099997350_099997475_099997597_099997716_099997832_099997945_099998055_099998162_099998266_099998366_099998464_099998559_099998651_099998739_099998825_099998908_099998987_099999064_099999137_099999208_099999275_099999340_099999401_099999460_099999515_099999568_099999617_099999664_099999707_099999748_099999785_099999819_099999851_099999879_099999904_099999927_099999946_099999963_099999976_099999987_099999994_099999999]

end Pmesh
