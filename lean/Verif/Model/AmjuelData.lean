/-!
# Coefficients of the AMJUEL fits

Generated by `tools/gen_amjuel.py` from the tables in `src/amjuel_hyd_ionisation.cxx`, `src/amjuel_hyd_recombination.cxx` and `src/amjuel_helium.cxx`.
The numbers are multiples of `10⁻³⁰`, exactly those of the source.  Rows belong to powers of `log T`, columns to powers of `log n`.
-/

namespace Hermes.AmjuelData

/-- `rate_coefs`, `src/amjuel_hyd_ionisation.cxx:6-33`. -/
def hydIonisationRate : List (List Int) :=
  [[-32480253303400000000000000000000,
     -54406691865830000000000000000,
     90488882251090000000000000000,
     -40540789935760000000000000000,
     8976513750477000000000000000,
     -1060334011186000000000000000,
     68462384364720000000000000,
     -2242955329604000000000000,
     28904376880720000000000],
   [14253323915100000000000000000000,
     -35943471607600000000000000000,
     -20147291215560000000000000000,
     10397736157300000000000000000,
     -1771792153042000000000000000,
     123746726429400000000000000,
     -3130184159149000000000000,
     -30519946015270000000000,
     1888148175469000000000],
   [-6632235026785000000000000000000,
     92555583531740000000000000000,
     -5580210154625000000000000000,
     -5902218748238000000000000000,
     1295609806553000000000000000,
     -105672162258800000000000000,
     4646310029498000000000000,
     -147961239184800000000000,
     2852251258320000000000],
   [2059544135448000000000000000000,
     -75624620869430000000000000000,
     15195959674330000000000000000,
     580349809835400000000000000,
     -352728501272500000000000000,
     32015337403220000000000000,
     -1835196889733000000000000,
     94740143433030000000000,
     -2342505583774000000000],
   [-442537033141000000000000000000,
     28826340191990000000000000000,
     -7285771485050000000000000000,
     464338988598700000000000000,
     1145700685235000000000000,
     849366272498800000000000,
     -10010325165120000000000,
     -14768391843180000000000,
     604770036816900000000],
   [63093818614960000000000000000,
     -5788686535780000000000000000,
     1507382955250000000000000000,
     -120155054866200000000000000,
     6574487543511000000000000,
     -967878281884900000000000,
     51762658452250000000000,
     1291551676860000000000,
     -96851573404730000000],
   [-5620091829261000000000000000,
     632910556804000000000000000,
     -152777769795100000000000000,
     8270124691336000000000000,
     32241017736050000000000,
     43774026490570000000000,
     -2622921686955000000000,
     -225966343143600000000,
     11614389907090000000],
   [281201657835500000000000000,
     -35641329503450000000000000,
     7222726811078000000000000,
     143301869434700000000000,
     -109743121560100000000000,
     7789031791949000000000,
     -419772868025100000000,
     30322603387230000000,
     -891107693001400000],
   [-6011143453374000000000000,
     808965126548800000000000,
     -118621268366800000000000,
     -23810807563070000000000,
     6271173694534000000000,
     -548301024493000000000,
     30646117021590000000,
     -1355903284487000000,
     29350800315990000]]

/-- `radiation_coefs`, `src/amjuel_hyd_ionisation.cxx:38-65`. -/
def hydIonisationLoss : List (List Int) :=
  [[-24975801683060000000000000000000,
     1081653961822000000000000000,
     -735893604460500000000000000,
     412239864695100000000000000,
     -140815330098800000000000000,
     24697308362200000000000000,
     -2212823709798000000000000,
     96481397047370000000000,
     -1611904413846000000000],
   [10044488399740000000000000000000,
     -3189474633369000000000000000,
     2510128351932000000000000000,
     -770704098895400000000000000,
     103130957857800000000000000,
     -3716939423005000000000000,
     -424970474235300000000000,
     41649608525220000000000,
     -989342387773900000000],
   [-4867952931298000000000000000000,
     -5852267850690000000000000000,
     2867458651322000000000000000,
     -832866809398700000000000000,
     205613435549200000000000000,
     -33015708075230000000000000,
     2831739755462000000000000,
     -116496929803300000000000,
     1785440278790000000000],
   [1689422238067000000000000000000,
     7744372210287000000000000000,
     -3087364236497000000000000000,
     470767628842000000000000000,
     -55086118154060000000000000,
     7305867762241000000000000,
     -600011571813800000000000,
     20452119517610000000000,
     -179031287169000000000],
   [-410353232010000000000000000000,
     -3622291213236000000000000000,
     1327415215304000000000000000,
     -142407851950800000000000000,
     3307339563081000000000000,
     5256679519499000000000,
     759702029155700000000,
     1799505288362000000000,
     -92808902057740000000],
   [64697183873570000000000000000,
     826856789812600000000000000,
     -283093962380200000000000000,
     24118480249600000000000000,
     570798486110000000000000,
     -101694569330000000000000,
     3517154874443000000000,
     -445319567394700000000,
     20024782649320000000],
   [-6215861314764000000000000000,
     -98365955242550000000000000,
     30172969190920000000000000,
     -1474253805845000000000000,
     -239786883741700000000000,
     15187430255310000000000,
     414908452131900000000,
     -6803200444549000000,
     -1151855939531000000],
   [328980989546000000000000000,
     5845697922558000000000000,
     -1479323780613000000000000,
     -46330290225770000000000,
     33373903740410000000000,
     -1770252084837000000000,
     -52898061536510000000,
     3864394776250000000,
     -8694978774411000],
   [-7335808238917000000000000,
     -136757448688500000000000,
     24232364764420000000000,
     5733871119707000000000,
     -1512777532459000000000,
     87338012728340000000,
     719679884126900000,
     -144103365037800000,
     1734769090475000]]

/-- `rate_coefs`, `src/amjuel_hyd_recombination.cxx:6-33`. -/
def hydRecombinationRate : List (List Int) :=
  [[-28588585708470000000000000000000,
     20686717467730000000000000000,
     -7868331504755000000000000000,
     3843362133859000000000000000,
     -741149215890500000000000000,
     92736878929970000000000000,
     -7063529824805000000000000,
     302653927705700000000000,
     -5373940838104000000000],
   [-767641332049900000000000000000,
     12780060325900000000000000000,
     -18703268969780000000000000000,
     3828555048890000000000000000,
     -362777038533500000000000000,
     440100725380100000000000,
     1932701779173000000000000,
     -117687289557700000000000,
     2215851843121000000000],
   [2823851790251000000000000000,
     -1907812518731000000000000000,
     11212511251710000000000000000,
     -3711328186517000000000000000,
     661748508330100000000000000,
     -68607744450020000000000000,
     4508046989099000000000000,
     -172342350928400000000000,
     2805361431741000000000],
   [-10628842737310000000000000000,
     -10107197838280000000000000000,
     4208412930611000000000000000,
     -1005744410540000000000000000,
     101365242236900000000000000,
     -2044691594727000000000000,
     -443118149801700000000000,
     34579033897840000000000,
     -737463977568300000000],
   [1582701550903000000000000000,
     2794099401979000000000000000,
     -2024796037098000000000000000,
     625030493697600000000000000,
     -92248913010520000000000000,
     7546853961575000000000000,
     -368270955116900000000000,
     10359286153910000000000,
     -132531258516800000000],
   [-193801279052200000000000000,
     214845373578100000000000000,
     33932853580490000000000000,
     -37464237539550000000000000,
     7509176112468000000000000,
     -868836525851400000000000,
     71447679387830000000000,
     -3367897014044000000000,
     62501110992270000000],
   [6041794354114000000000000,
     -142150281967100000000000000,
     61438790760800000000000000,
     -12325492261210000000000000,
     1394562183496000000000000,
     -64348339880010000000000,
     -2746804724917000000000,
     356429101299500000000,
     -8551708197610000000],
   [1742316850715000000000000,
     15950510383260000000000000,
     -7858419208668000000000000,
     1774935420144000000000000,
     -218758425156100000000000,
     13270907026590000000000,
     -138672024098500000000,
     -19462066885190000000,
     574542238508100000],
   [-138492777498800000000000,
     -566467343387900000000000,
     288685776238700000000000,
     -65917431825690000000000,
     8008790343319000000000,
     -480583707164600000000,
     6459706573699000000,
     551072958279100000,
     -16808713036390000]]

/-- `radiation_coefs`, `src/amjuel_hyd_recombination.cxx:38-65`. -/
def hydRecombinationLoss : List (List Int) :=
  [[-25924503499090000000000000000000,
     12220972718740000000000000000,
     42784994019070000000000000,
     1943967743593000000000000000,
     -712347460210200000000000000,
     130352339589200000000000000,
     -11865607525610000000000000,
     533445563003100000000000,
     -9349857887253000000000],
   [-729067023649300000000000000000,
     -15403239306660000000000000000,
     -3406093779190000000000000000,
     1532243431817000000000000000,
     -465842377278400000000000000,
     59724487534450000000000000,
     -4070843294052000000000000,
     137870988064400000000000,
     -1818079729166000000000],
   [23639258690960000000000000000,
     11644533463050000000000000000,
     -5845209334594000000000000000,
     2854145868307000000000000000,
     -507748529113200000000000000,
     42111066377420000000000000,
     -1251436618314000000000000,
     -16265557452590000000000,
     1073458810743000000000],
   [3645333930947000000000000000,
     -1005820792983000000000000000,
     695635227424900000000000000,
     -930505637373900000000000000,
     258489629438400000000000000,
     -32946438988940000000000000,
     2112924018518000000000000,
     -65446828421750000000000,
     781029307570000000000],
   [1594184648757000000000000000,
     -15822380075480000000000000,
     407369561927200000000000000,
     -93791692438590000000000000,
     1490890502214000000000000,
     2245292872209000000000000,
     -315090101451300000000000,
     16319656358180000000000,
     -298409302569500000000],
   [-1216668033378000000000000000,
     -350307014012600000000000000,
     104350029663300000000000000,
     9536162767321000000000000,
     -6908681884097000000000000,
     823201900816900000000000,
     -29053310512590000000000,
     -316903851774900000000,
     24427657661670000000],
   [237611589524100000000000000,
     117270977714600000000000000,
     -66951820456740000000000000,
     11881840062100000000000000,
     -438151436496600000000000,
     -69362671730790000000000,
     6592249255001000000000,
     -177888795883100000000,
     1160762106747000000],
   [-19309776367660000000000000,
     -13184014913040000000000000,
     8848025453481000000000000,
     -2072370711390000000000000,
     205591999359900000000000,
     -7489632654212000000000,
     -70737970307490000000,
     10470875051470000000,
     -187744627135000000],
   [559925777514600000000000,
     497782331931100000000000,
     -361501382309200000000000,
     94669893064970000000000,
     -11464852276990000000000,
     677233891715500000000,
     -17764963447630000000,
     71991950613820000,
     3929300283002000]]

/-- `he01_rate_coefs`, `src/amjuel_helium.cxx:8-35`. -/
def heIonisationRate : List (List Int) :=
  [[-42271184527980000000000000000000,
     129455445199800000000000000000,
     -84339795380520000000000000000,
     49107219793750000000000000000,
     -14540472824380000000000000000,
     2178105605879000000000000000,
     -165751235534800000000000000,
     6161429564793000000000000,
     -89106155909090000000000],
   [24116681009750000000000000000000,
     -81219992082810000000000000000,
     40525701604820000000000000000,
     -23679249625080000000000000000,
     8488392041366000000000000000,
     -1452752408581000000000000000,
     117090218293900000000000000,
     -4410479245308000000000000,
     62973159496470000000000],
   [-12031811336670000000000000000000,
     -3998282970932000000000000000,
     -2819919193060000000000000000,
     -1904887727240000000000000000,
     -239094858533400000000000000,
     184448442228500000000000000,
     -19727280278600000000000000,
     777944021980100000000000,
     -10338141452330000000000],
   [3829444688521000000000000000000,
     25464140732660000000000000000,
     2654490306111000000000000000,
     1087493205419000000000000000,
     -446919220689600000000000000,
     37155381555900000000000000,
     -1595144154431000000000000,
     63110391240560000000000,
     -1485989166680000000000],
   [-794583925717500000000000000000,
     -14935978748500000000000000000,
     -1018320076497000000000000000,
     282192732575900000000000000,
     32692648545810000000000000,
     -5937518354028000000000000,
     471465663719700000000000,
     -24334629239930000000000,
     530742353215900000000],
   [105433417855500000000000000000,
     4338821244147000000000000000,
     -148356047820800000000000000,
     -69015746896720000000000000,
     6350490312899000000000000,
     -441416735805700000000000,
     12666036030490000000000,
     804943555833900000000,
     -38077961935720000000],
   [-8578643565653000000000000000,
     -668920260352500000000000000,
     90841624874210000000000000,
     -4184111347149000000000000,
     115391932715100000000000,
     37974354559340000000000,
     -4123383037275000000000,
     109596007874600000000,
     -51098016081230000],
   [388623272718100000000000000,
     51808051234760000000000000,
     -11254537872910000000000000,
     1536214841434000000000000,
     -163260139851700000000000,
     8948177075796000000000,
     -185367499629400000000,
     13421667079990000,
     11845696451460000],
   [-7487575233223000000000000,
     -1582977433740000000000000,
     441379210708300000000000,
     -78320951766370000000000,
     9586974774950000000000,
     -673907617081000000000,
     25655984439920000000,
     -499462509880700000,
     4124048804450000]]

/-- `he01_radiation_coefs`, `src/amjuel_helium.cxx:40-67`. -/
def heIonisationLoss : List (List Int) :=
  [[-35352583936740000000000000000000,
     -34282493117380000000000000000,
     63780718323820000000000000000,
     -28498188703770000000000000000,
     6041903480645000000000000000,
     -686453216556000000000000000,
     42511556168150000000000000,
     -1351759350582000000000000,
     17288019771010000000000],
   [19818558710440000000000000000000,
     48544826888920000000000000000,
     -50889289468310000000000000000,
     17321102188180000000000000000,
     -2781419068092000000000000000,
     224480477168300000000000000,
     -8875290574348000000000000,
     139942981976100000000000,
     -138977874051000000000],
   [-9334355651224000000000000000000,
     -45242064631480000000000000000,
     21030028696920000000000000000,
     -4463941003028000000000000000,
     290091707065800000000000000,
     24824491188810000000000000,
     -4278064413224000000000000,
     204057018178300000000000,
     -3324224092217000000000],
   [2800314250410000000000000000000,
     24743507879800000000000000000,
     -6012991773715000000000000000,
     891800984574500000000000000,
     -26162498991410000000000000,
     -6885545577757000000000000,
     701361630971200000000000,
     -25700634379350000000000,
     357348719491400000000],
   [-548908859870500000000000000000,
     -7339538872774000000000000000,
     778307130250800000000000000,
     -44832745589790000000000000,
     1900991581685000000000000,
     -974717169272700000000000,
     134982956837400000000000,
     -5815812094637000000000,
     66865327775750000000],
   [69020956103570000000000000000,
     1234159378604000000000000000,
     29897454111040000000000000,
     -30409062033400000000000000,
     2951386149372000000000000,
     75921851075750000000000,
     -18050602304130000000000,
     315685921912100000000,
     10711686973400000000],
   [-5342940069130000000000000000,
     -122316954910700000000000000,
     -15007903058230000000000000,
     5253922160283000000000000,
     -446890589392600000000000,
     7483496971361000000000,
     -977755871342800000000,
     177061939412500000000,
     -6050995244427000000],
   [231317508997500000000000000,
     6966436907981000000000000,
     894496290981000000000000,
     -171202459644700000000000,
     -9782015167261000000000,
     2499416349949000000000,
     47319733822210000000,
     -18451619578430000000,
     601107014323000000],
   [-4279800193256000000000000,
     -181546666991000000000000,
     -2282174576618000000000,
     -6972920569943000000000,
     2607191494540000000000,
     -287091951496700000000,
     8059675146168000000,
     370431680894200000,
     -17132252715790000]]

/-- `he10_rate_coefs`, `src/amjuel_helium.cxx:87-114`. -/
def heRecombinationRate : List (List Int) :=
  [[-28727543731230000000000000000000,
     -6171082987797000000000000000,
     24145486395970000000000000000,
     -7188662067622000000000000000,
     948126860476700000000000000,
     -19588874586370000000000000,
     -5507786383328000000000000,
     435828868693000000000000,
     -9503272091010000000000],
   [1564233603544000000000000000000,
     -39722207214570000000000000000,
     -44667125991810000000000000000,
     12473591587960000000000000000,
     -1660591942878000000000000000,
     60191814020250000000000000,
     3800156798817000000000000,
     -337780779375600000000000,
     6828447501225000000000],
   [-6182140631482000000000000000000,
     162664166818600000000000000000,
     33665895825410000000000000000,
     -7413737965595000000000000000,
     1220189896183000000000000000,
     -95052957247500000000000000,
     4459492214068000000000000,
     -155277244133300000000000,
     2866586118879000000000],
   [5459428677778000000000000000000,
     -170032349499800000000000000000,
     -15401063840880000000000000000,
     952454579326200000000000000,
     -87343415353850000000000000,
     -2796027477899000000000000,
     456198109743800000000000,
     4940311502014000000000,
     -652572501076000000000],
   [-2128115924661000000000000000000,
     72339397094140000000000000000,
     5819196258503000000000000000,
     -76559358457610000000000000,
     -18379490670500000000000000,
     4725789832980000000000000,
     -399778241186000000000000,
     10367315411230000000000,
     -33738457121830000000],
   [437373037303700000000000000000,
     -15749170198350000000000000000,
     -1456253436544000000000000000,
     47724918450780000000000000,
     -1827059132463000000000000,
     -69411632927100000000000,
     27167401359490000000000,
     -1143121626264000000000,
     12951390270870000000],
   [-49722572087320000000000000000,
     1866175274689000000000000000,
     204733749851100000000000000,
     -10044380528080000000000000,
     759073486585000000000000,
     -67711791476670000000000,
     1218720257518000000000,
     67870244795400000000,
     -2432253541918000000],
   [2967287371427000000000000000,
     -114781132505200000000000000,
     -14608135939050000000000000,
     742238599316400000000000,
     -32819464881340000000000,
     2164459880579000000000,
     111386823728200000000,
     -15139226786550000000,
     395108452087100000],
   [-72712047471160000000000000,
     2874049670122000000000000,
     412442117220200000000000,
     -16892039719330000000000,
     -907117281445800000000,
     184429521933400000000,
     -20550235115560000000,
     1101902611511000000,
     -22060821294730000]]

/-- `he10_radiation_coefs`, `src/amjuel_helium.cxx:119-146`. -/
def heRecombinationLoss : List (List Int) :=
  [[-25383776927660000000000000000000,
     -48268809876190000000000000000,
     67965759673100000000000000000,
     -24017100213900000000000000000,
     4130156138736000000000000000,
     -349480312201800000000000000,
     13450251005400000000000000,
     -132391712756800000000000,
     -2551716207606000000000],
   [2472758419513000000000000000000,
     166805898920700000000000000000,
     -126519278198100000000000000000,
     29381717770280000000000000000,
     -2216525055070000000000000000,
     -126152368694600000000000000,
     27014019181330000000000000,
     -1370446267883000000000000,
     23136737872010000000000],
   [-8864417999957000000000000000000,
     -188232673003700000000000000000,
     119402867431000000000000000000,
     -23828366291190000000000000000,
     1134820469638000000000000000,
     178211397827200000000000000,
     -23055543998980000000000000,
     943029409318000000000000,
     -13051884238290000000000],
   [8394970578944000000000000000000,
     83979932160450000000000000000,
     -57969728137400000000000000000,
     11586003487530000000000000000,
     -750474315058200000000000000,
     -26029116949390000000000000,
     4568209602293000000000000,
     -145811056050100000000000,
     982659991193400000000],
   [-3465864794112000000000000000000,
     -15726841802200000000000000000,
     13981923277760000000000000000,
     -2700181027443000000000000000,
     190230415726900000000000000,
     -1534387905925000000000000,
     -103206007926000000000000,
     -13558586386190000000000,
     591727977147300000000],
   [747907108537200000000000000000,
     599766602881100000000000000,
     -1614053457119000000000000000,
     262086643931700000000000000,
     -11030393827990000000000000,
     -421544755481900000000000,
     -9926133276192000000000,
     4148813674084000000000,
     -120786767015800000000],
   [-88635751023040000000000000000,
     190154016634400000000000000,
     69410902993750000000000000,
     -3042043168371000000000000,
     -1677907209787000000000000,
     215365274239500000000000,
     -6354480058307000000000,
     -122310379256800000000,
     5543057946730000000],
   [5484926807853000000000000000,
     -25103594367430000000000000,
     1123735445147000000000000,
     -919849479772300000000000,
     205885131512100000000000,
     -18664163758940000000000,
     756483555653700000000,
     -16229934729480000000,
     242898617019800000],
   [-138844194517900000000000000,
     914199559670000000000000,
     -116891589033000000000000,
     34853707317770000000000,
     -5086412415216000000000,
     367415379764200000000,
     -16218099883430000000,
     673765453426400000,
     -16787057558760000]]

end Hermes.AmjuelData
