import Verif.Model.AdasFile

/-!
# The tables of `json_database` that the OpenADAS reactions read

Written by `tools/gen_adas.py`.  Every number `v` of a file is stored as `(v + 100) * 10^5`, which is a whole number up to the rounding of
the decimal digits in the file; a level of a table is one number, eight decimal digits for each coefficient, density running fastest.
-/

namespace Hermes.AdasData

/-- `json_database/scd96_c.json`. -/
def scd96_c : PackedFile where
  temperature := [9930123, 9947732, 9969917, 9984530, 10000020, 10017629, 10030123, 10047732, 10069917, 10084530, 10100020, 10117629, 10130123, 10147732, 10169917, 10184530, 10200020, 10217629, 10230123, 10247732, 10269917, 10284530, 10300020, 10317629, 10330123, 10347732, 10369917, 10384530, 10400020, 10417629]
  density := [11369897, 11400000, 11430103, 11469897, 11500000, 11530103, 11569897, 11600000, 11630103, 11669897, 11700000, 11730103, 11769897, 11800000, 11830103, 11869897, 11900000, 11930103, 11969897, 12000000, 12030103, 12069897, 12100000, 12130103]
  levels := [
    62031620620630206208773062097200621187506219883062341780624721106267178063019030633226806365191064106490644498406478284065207280655194206582655066228000665302606683195067224530675169206780869070154270701907507023182070301520703526707038500070437930704900707053727070607360706806707078085070965540711441307134960071654320719056207217205072540600728276407311889073503540737926507408151076620450766489607667770076716110767488707678834076847190768962907695156077033330770981607716061077233270772842107734204077454750775834707775608078038540782821207854309078896670791640707943158079376420794028607943081079469130795004707953575079588960796333207968040079747240797994607984951079907190799467007999026080074040801719708030837080542030807517408098124081284560815065108172784081432660814559708148055081514740815441508157904081631130816729908171658081777850818244708186676081912660819431308197755082046640821289908224405082441100826175508280825083043840832044808336343083081970830999308311946083149380831762908320695083251720832869008332263083371610834082508344124083477210835018408353080083589930836599208375661083919410840609408420787084377240844851808459103083951050839644908397948084003990840268408405267084090180841192408414815084187750842174208424381084273070842939708431913084371840844339908451844084659470847802208490228085037970851213908520262084832680848417408485247084871140848891108490926084937120849581808497949085009020850310608505047085072430850894608511167085158330852121408528420085404050855046908560243085708420857729108583552085576720855819308558878085601530856136708562668085643510856563108567036085690510857055908571925085736290857505708576909085808970858554508591737086019630861051208618789086276230863286508637932085928480859327108593769085946420859547008596369085975600859847908599482086010310860224208603300086046530860586208607473086109580861505508620585086297630863755308645292086534480865808908662539086214860862177508622181086228710862342508623932086246670862534408626129086273110862821708629026086300630863103708632431086354340863896108643804086521250865933608666467086740740867852508682818086461870864641608646688086470920864741708647756086482190864862608649149086500090865068808651288086520970865290908654089086565660865948208663598086709200867748808684172086913530869551908699530086597500865995008660112086603650866061408660879086612410866154908661921086625640866313708663713086644050866504608666072086682610867082408674476086811570868729208693624087004950870450808708374086745120867458408674733086749610867510008675211086754370867569008675978086764140867681008677269086778450867836108679184086809950868315808686271086921550869773408703637087101290871393008717588086874640868752308687580086876930868779408687879086880170868816808688361086886590868891208689201086896870869016208690780086921320869383008696331087011440870592108711299087174090872102708724513086932030869325008693284086933640869344408693510086936260869374808693884086941000869431708694592086949820869534008695863086970190869844108700543087047370870904508714005087197520872321908726571086977440869776408697776086978230869788408697949086980300869810208698209086984030869859408698828086991460869944008699889087008900870211408703921087076050871148408716048087215640872506408728476087020830870209908702135087021770870220408702244087023010870235408702439087025870870272108702877087031350870340208703777087045880870560408707133087101990871354008717749087230490872647908729833087048360870487008704892087049230870495008704969087050120870506208705120087052320870534608705475087056880870591808706254087069600870784608709212087119440871499308718972087240120872724508730402087083210870833508708326087083320870836008708387087084360870847608708507087086090870872208708821087089940870919008709453087100510871082308711979087142300871672908720065087247290872808308731415087123130871229708712249087122240871225308712296087123570871238208712382087124750871259008712650087127780871293208713099087135690871420808715098087167350871852508721016087252070872875608732361087147880871475108714677087146320871466208714715087147840871480008714779087148660871498308715018087151160871524208715345087157310871628408716998087182280871955208721491087253710872904408732823087173210871726308717162087170950871712708717191087172680871727408717231087173130871743008717438087175050871760108717636087179340871839708718922087197190872055208721909087254610872926108733223087201240872004208719909087198180871985208719929087200140872000908719941087200160872013408720112087201430872020608720163087203610872072408721032087213370872161208722313087254930872943408733599087220770872197808721823087217150872175008721836087219280872191508721830087219000872201808721974087219790872202008721921087220490872234008722495087224500872233108722570087254870872952508733831087247970872467308724486087243540872439208724491087245920872456708724457087245200872463908724565087245340872454208724365087243940872458608724523087239850872331308722905087254540872962408734126087281860872803108727805087276420872768208727798087279100872787208727730087277840872790408727791087277150872768208727405087273100872738108727042087258820872451808723304087253920872972108734464087304040873022908729976087297930872983508729961087300810873003308729871087299190873004008729901087297950872973608729393087292170872920808728687087271170872530008723560087253470872977708734675087327470873255008732269087320640873210808732246087323740873231708732132087321740873229608732129087319920873190408731492087312300873113808730423087284190872612308723831087253000872983408734892087354030873518208734868087346390873468608734836087349740873490508734695087347310873485308734655087344820873436208733870087335110873332708732390087298920872705608724143087252530872989908735135,
    33706360339085903415716034554610348995403528705035849580362940703674539037344830377989003825547038870270393499203984514040522260410431704155646042194000426251104300169043414740436644104385559050630240506512405069614050810290509356305107852051287240514664605167479052018770523477805273532053309040537678205423808054870460553518305582727056421610568269405718728057593160578457605804557064816430648436906488620064974310650629606515539065256400653079006534366065381190654144106546449065585530657496406600112066456530668556106726466067784500681476106848190068882460691511606937594070859080708818607091912070999450710843307117801071286990713452707138450071417850714378707145976071498370715437207161922071804430720295907231503072734010730546507337649073806120741241107440810075412710754320007546410075535960756149607570592075816920758779807591861075951110759688407598639076011190760332307606571076139240762331607637428076634600768812407717139077611600779612607828256078983880789993707902589079087080791566107923952079344260794033607944301079474310794898307950193079517230795319707955274079592320796362207970186079841010800016008022350080598370809095808120161080794610808073908082931080880780809403108101223081104070811559608119120081219310812329208124370081257560812699208128520081312790813438008139016081488300816059108177841082086420823503308260236082631690826410008265808082696360827391308279211082861600829013708292821082949170829592808296789082979080829882808299983083020160830414308307244083138830832206608334464083574860837794108398056084129120841345808414424084166040841914408422428084267580842917708430824084322170843299308433663084344650843511508436031084376690843922908441345084459160845172708460579084771670849225908507527084783520847868508479306084807960848254308484702084875730848929108490521084915580849209608492590084932960849392508494718084960230849729308499110085030080850783908515167085288580854143608554522085286780852884808529237085301710853122008532525085343240853542808536205085369440853743808537846085384020853897108539666085407940854189708543403085465960855059308556678085681610857883308590027085692820856939308569622085701410857070808571406085723730857299108573460085739360857427208574606085750800857551108576063085770350857800308579269085818470858508008590126085996560860848108617990085904310859051508590677085910230859138808591832085924610859288908593222085935540859379208594062085944890859487908595368085961880859698708598081086003920860326608607630086158710862366308632242086125150861254508612599086127090861286708613184086135830861371508613878086141520861432908614504086148040861513908615599086162900861687908617777086198190862227908625778086325430863930208646762086306120863065608630804086309970863104008631088086312310863138608631548086317390863185808631960086321460863238408632707086332900863387508634608086360550863787408640745086463890865191808658235086386750863867608638663086387450863890008638971086390460863918408639236086392440863935008639555086398410864001908640296086407430864112408641785086431760864473608647147086520340865700508662775086443500864437508644463086445870864461408644619086446800864479208644895086450060864509408645191086453510864552708645785086461800864651908647053086481800864951508651628086559760866044508665682086484070864842008648464086484960864848808648566086486730864866908648743086489120864898808649046086491760864933808649515086498280865018108650624086515430865274108654593086584040866241008667160086499070864990808649906086499020864991508649960086500380865008008650118086501940865027608650353086504950865066008650824086510720865135708651779086526470865370708655394086589040866261208667125086504810865048308650490086504950865050008650532086506070865065208650655086506730865075208650841086509490865105108651209086514650865169208652057086528300865375008655225086583800866181008666088086500390865004208650049086500420865004008650119086502350865023008650204086502330865032308650416086505210865059708650672086508460865108608651402086519990865275708654049086568800865998308663911086495100864951108649513086495160864952008649528086495210864951708649591086496830864966908649712086498430864992108649985086501680865041908650670086511320865181408652976086555440865842808662150086485850864858708648592086485860864858408648647086487390864873508648725086487770864885408648879086489060864899208649076086492200864940708649636086500970865071708651731086539970865663408660156086473030864730708647321086472970864728408647457086477490864775008647569086475310864779108647813086476770864778108647891086479620864804908648277086487860864933408650184086521090865445108657745086463240864633008646350086463140864629308646543086469740864697808646679086465770864696608646986086467350864685208646980086470000864701808647246086477870864828308649017086507020865283108655962086448810864488908644917086448640864483308645188086458130864582108645358086451690864573408645751086453440864547808645629086455770864550208645729086463130864673608647311086486560865048208653383086429990864301008643047086429740864293008643414086442770864429008643625086433300864411208644125086435250864368008643858086437180864353008643758086443910864472208645100086460180864745408650065086417390864175108641795086417090864165708642224086432390864325608642461086420970864301908643030086423050864247408642669086424710864221208642440086431040864337408643625086442620864543708647855086403950864040908640459086403600864030008640952086421260864214608641217086407830864184808641856086410040864118708641398086411400864080808641037086417300864193608642054086423950864328808645501086388660863888208638939086388250863875608639502086408520864087708639798086392850864051108640516086395210863972008639948086396220863921208639442086401650864029808640269086402720864084108642820,
    20000000200000002000000020000000200000002000000020000000200000002000000020000000200000002000000020000000200000002000000020000000200000002000000020000000200000002000000020000000200000002000000020000030200000502000010020000230200004002000065020001050200013802000171020002290200029002000383020006330200109502002340020090930202745102067205021408170220085802258072023263460237053702407280043807400438646304395595044136240443032104447024044653870447594504484317044936940450075704508525045205880453183404545902045708360459617004628106046806310472608504773668048353320487902904919677055701120557530205583739056008580561718505633967056529870566377605671887056803850568620305692158057009700570871705717775057326890574752305766868058013950583452505872448059265430596836506010258064622890646659906473840064892700650470406521148065404020655142206559484065673440657243106577453065845230659072706597981066095060662027206633625066569250668026206708901067539060679179906832282071582330716178307167895071814230719548407210907072294150724005907247736072549190725910507262942072683970727314307278574072870420729483607304422073211190733806507359599073956620742813107464673075088180751184607517099075289210754143307555308075720060758145607588084075940440759749607600667076050120760877807613098076197780762600607633682076468820766042107678060077087220773741307770587078628350786513907869192078784650788835307899217079118930791878007923480079276550792998007932095079352050793786207940830079454940794991407955367079647070797447107987576080113520803481808063036081494390815096008153641081598110816641408173613081818130818615508189056081915140819289708194219081961790819784008199700082026620820545208208891082148540822111208229765082464720826388708285846082737970827485308276765082812890828623708291701082979590830126508303458083053310830637308307335083087330830993808311307083134950831561508318235083226560832731308333857083467970836082908379134083685190836926708370623083738880837755208381689083864850838900808390689083921970839301308393720083947660839568408396700083982390839976608401735084051270840857508413364084230770843397508448758084440060844448608445394084476560845026108453290084569460845896108460327084614780846208408462607084633260846397508464715084658210846692808468334084706590847308908476557084836220849156208502833084826460848301308483695084854000848741508489845084929300849468208495857084968040849732608497788084983280849878508499358085003380850122108502275085041310850603708508714085142630852068308530146085221620852240008522861085240440852547608527253085295880853094008531853085326300853305808533425085338530853416908534555085352950853595008536722085381460853956208541472085454250855022608557786085547900855496008555237085558990855673508557842085593940856033008560987085615620856185308562086085623900856262408562898085634070856386808564416085653930856637608567725085705240857392308579743085689990856910408569283085697290857030808571096085722270857291008573387085738280857403008574185085744670857468108574895085752840857566508576131085769230857769508578766085810460858382008588805085794380857948608579594085799030858030708580844085815990858206508582402085827210858289208583035085832400858341108583601085839150858424508584655085852910858591508586788085886210859091808595220085873840858744008587518085876880858791208588231085887180858902308589241085894530858959108589717085898550858997508590134085904090859066908590983085915120859204608592780085942840859616208599770085914370859147108591528085916670859183708592061085923810859260808592787085929270859303008593145085932630859337708593531085937740859398908594257085947490859522408595847085971180859871108601849085957890859580008595829085959170859602908596174085963790859652808596651085967470859678408596824085969360859707708597221085973520859753408597819085982360859855808599001086000890860145508604036085995060859951508599531085995710859962408599697085998050859988608599934085999380860010208600350086004240860036108600387086007270860084308600844086011650860158608602034086027020860377708605921086015710860157708601588086016170860165408601700086017610860180608601836086018380860190508601989086019710860206708602251086023660860250208602659086027220860304808603593086041890860497908606646086031780860318108603189086032070860323008603261086033040860333208603353086033670860336608603334086032770860351608603822086037270860387808604212086041570860422508604597086052710860595008607210086047970860479908604804086048150860483008604849086048750860489008604900086049070860490908604915086049250860489408604925086052310860533508605330086055790860584008606042086063040860692208608133086057070860570808605712086057200860573108605744086057630860577408605780086057860860578908605787086057820860580708605902086061330860614008606094086064110860671308606908086071050860756508608511086066280860662908606632086066370860664408606653086066640860667208606676086066740860670408606700086066100860698808607473086071850860700608607156086073720860751708607731086081650860832808608637086076220860762208607624086076280860763208607636086076410860764908607650086076370860770308607700086074990860833408609324086083650860794808608357086084360860837408608615086093610860914608608640086082120860821308608214086082170860822108608223086082250860823308608233086082120860830308608301086080270860916308610487086090850860851108609089086090780860888108609140086100920860962708608585086088020860880208608803086088060860880908608810086088090860881808608816086087870860890508608904086085530861000808611686086098140860907508609833086097250860938408609663086108340861010408608492086094400860944008609441086094440860944608609446086094430860945408609450086094120860956008609561086091210861094008613021086106150860968608610648086104310860992708610228086116480861061608608357,
    20301030203010302030103020301030203010302030103020301030203010302030103020301030203010302030103020301030203010302030103020301030203010302030103020301030203010302030103020301030203010302030103020301030203010302030103020301030203010302030103020301030203010302030103020301030203010302030103020301030203010302030103020301030203010302030103020301030203010302030103020301030203010302030103028783740287883902879680028816460288400202887294028931900289869702904991029144730292262102931680029452160295684602969874029895720300677203026960030602770309294703136998032146300328143003346804044786270447903204479743044813670448329904485998044908550449545304500790045089260451589504523600045350530454484904555748045721450458645104602961046294350465473204688034047487490480702804869171056793140567963905680207056814840568299505685104056889210569258505696910057035880570930405715613057249640573291305741711057548880576630905779202057991540581754105840747058850990593427405992236066172230661745306617841066187110661977006621286066240910662680806630021066350080663933006644168066514260665762306664550066749740668387406693840067092360672327206740201067726580681172706862058070905640709076607091040070915900709228507093345070954130709748007099971071038880710729907111121071168850712186207127460071359480714329307151554071643090717589607189647072160080724882507293418075673850756746507567617075679900756846707569167075704980757183107573458075760630757837807581076075852300758871907592750075991200760460207610824076205710762939807639884076598760768497807721777079505210795056207950608079507230795094107951352079522390795312907954164079557850795729807959059079618060796428907967064079712820797516007979603079865090799298308000868080157810803428108062738081161380811614008116132081161500811627708116581081172810811795408118671081197620812090908122330081245590812650408128700081320880813512208138638081442690814961208156258081688720818426808208414082420030824207408242113082421300824219708242386082428580824333308243861082447210824565208246696082482230824972408251460082540380825634308259138082637770826811708273645082843110829711008317409083417360834172708341740083418050834189408342019083422710834257608343024083437980834441108345066083461740834733108348563083503650835230908354540083579170836140708366010083749120838568608402608083924060839240508392411083924430839250008392597083928080839304508393363083939230839444908395017083959240839690008397886083993010840101208402928084056870840870208412770084206980843035808445470084440040844400308443991084439680844397008444011084441540844434508444619084450880844548108445935084466700844731708448045084492120845036508451829084543120845671308459993084667400847494708487822084863260848632608486318084863100848633808486426084866230848676708486848084869560848724108487622084881710848868808489242084900970849103108492137084939020849579908498488085040460851088208521677085049090850490808504890085048530850485608504922085050990850522508505275085052830850543608505784085064420850688808507286085079290850869508509618085111090851275608515114085200750852629508536036085189090851891008518917085189330851893208518904085188480851885308518956085191990851934808519575085200270852032808520710085214170852197408522669085240350852553008527613085319530853744208546207085297090852970808529695085296690852967108529720085298450852991808529915085299240853016608530396085305770853091008531322085318370853228408532900085341090853538808537191085410300854590008553662085351560853515608535160085351670853516608535153085351280853513808535205085353560853545908535617085359310853614908536400085368900853739708537966085388990854001208541685085452440854967108556800085401760854017608540179085401860854018608540177085401630854017908540244085403840854047308540607085408720854105308541294085417260854203808542512085435060854442708545768085488620855287408559281085432980854329808543292085432780854326908543266085432860854333408543422085435780854367608543753085438720854402908544241085445970854494708545375085461030854687608548044085506540855399308559469085437640854376408543769085437800854378208543769085437400854374108543793085439270854402208544105085442430854441908544604085448680854519108545587085462330854695908548047085504000855337808558316085430200854302108543044085431080854316108543202085432200854321108543186085431830854326808543372085435070854367308543865085441310854438308544682085452170854586608546861085490180855173308556189085415340854153408541531085415240854151708541509085415020854150408541515085415580854162708541726085418620854193108542056085423550854259808542893085434270854396508544798085467170854915608553104085400800854008108540086085400960854009408540072085400290854003308540112085402580854026108540287085404400854052108540658085409630854115308541354085418100854241408543207085447800854695408550613085380350853803508538034085380320853803108538034085380410853804008538028085380020853800108538049085381900853830408538384085385230853881208539156085395780853997608540589085420480854399308547158085349610853496108534960085349590853496008534964085349720853497108534958085350140853521108535304085351970853527608535437085356270853576908535876085361270853666508537315085384310854008208542680085328450853284508532846085328490853285108532853085328560853285508532852085329890853332408533444085331630853321508533440085336840853370908533631085337610853442208535118085359930853745208539693085305840853058408530586085305920853059608530596085305930853059308530601085308190853129508531443085309840853100808531299085315980853150408531235085312420853203008532770085333970853465908536531085280180852801808528022085280310852803708528035085280250852802608528047085283540852898208529161085285080852850108528864085292230852899808528522085283950852931808530106085304630853150708532974,
    20000000200000002000000020000000200000002000000020000000200000002000000020000000200000002000000020000000200000002000000020000000200000002000000020000000200000002000000020000000200000002000000020000000200000002000000020000000200000002000000020000000200000002000000020000000200000002000000020000000200000002000000020000000200000002000000020000000200000002000000020000000200000002000000020000000200000002000000020000000200000002000000020000000200000002000000020000000200000002000000020000000200000002000000020000000200000002000000020000000200000002000000020000000200000002000000020000000200000002000000020000000200000002000000020000000200000002000000020000000200000002000000020000000200000002000000020000000200000002000000020000000200000002000000020000000200000002000000020351970203519502035193020351860203517602035160020351240203508202035027020349350203485402034764020346330203452502034408020342400203410502033966020337750203362102033456020332200203303302032850022031740220317402203175022031760220317702203179022031840220319002203198022032100220322202203234022032520220326702203283022033070220332502203345022033710220339202203415022034480220347402203499021575940215758902157577021575430215749402157416021572430215704202156774021563310215594002155506021548710215434702153785021529740215232202151650021507270214998302149185021480440214714102146256028091690280923302809370028097960281042102811450028137090281624402819468028245680282894802833675028403880284636302853251028619460286871102876118028864120289480802904075029181440293105002947873049738700497432804975240049777960498132004986473049951940500192605007661050135090501706805020500050254850502864105031558050380010504379405049601050587210506722105077705050968620511782105146858059188810591992105921951059272130593375405942257059546490596286005968940059742510597719305979866059832510598630505989890059945520599851706003355060112380601895906029206060490530607078106099967066628050666356106665031066689580667398506680671066906340669733306702290067065190670877106710801067134420671572706718334067219660672516506729030067353560674172906750385067674190678650506812558072439590724452107245586072485150725239707257692072657510727121807275222072785270728023107281774072837670728531407287011072897610729224007295129073000240730508207312070073262450734259107365315075352950753575807536665075391510754245107547005075540820755897407562583075655240756696807568220075698100757106607572447075746030757657307578947075830450758727507593179076055580762011807640595078306650783099307831651078334970783601007839572078452820784931907852314078547310785590107856881078579710785886007859926078615030786291307864636078676190787077307875311078851630789709607914136080722420807245108072873080740860807579408078312080825530808570208088109080900070809076208091320080922140809282608093335080943730809534008096408080983890810057208103729081106240811919708131670081789940817915108179466081803690818165008183569081868880818940908191368081929670819368008194222081948410819527208195720081964750819717008197990081994490820106208203431082086260821527808225062082615920826170408261929082625630826346708264852082673390826930308270872082721710827272708273117082735470827386808274214082747410827522108275810082768600827802108279730082834680828827108295383083283650832843208328569083289720832956608330494083321810833352208334598083355130833595208336290083365830833681408337118083375150833783608338204083387930833956308340808083433450834642108350969083629680836301608363113083633960836381308364472083657070836673108367591083683480836869108368922083691240836929708369519083698090837008108370425083709260837148408372348083741460837637408379684083988940839892408398983083991500839939408399788084005640840124908401852084023620840251108402592084029520840313708403152084034380840363608403681084039510840446208405159084061080840741308409574084288340842884608428871084289550842909008429311084297300843007508430368084306750843090208431114084311980843118508431207084313460843151708431710084319660843220608432542084332240843400408435079084420290844203908442058084421110844218908442320084425970844286008443105084433190844337108443392084435700844366508443661084437740844388108443973084442580844445208444597084450900844566008446385084518210845182608451838084518690845191708451998084521710845234008452503084526550845269908452722084528510845291508452910084529970845308608453165084533780845352208453632084539830845439508454897084589280845893108458938084589550845898108459026084591270845922708459326084594220845945308459474084595750845962308459616084596870845976008459828084600070846012008460202084604880846074308461009084620450846204708462051084620620846207908462110084621760846224208462308084623770846240908462425084624420846247608462535084626200846268808462757084628370846293208463074084632860846344908463660084643460846434708464349084643540846436408464381084644170846445408464491084645340846455808464570084645610846459408464666084646910846470708464776084649230846501708465086084652410846539308465560084645070846450708464508084645100846451408464521084645370846455408464572084645940846460808464614084646070846463108464684084647070846474108464809084648570846493708465071084651500846522008465369084634620846346208463462084634640846346608463469084634780846348808463500084635130846351908463523084635330846351908463500084635730846365308463714084638030846385908463898084639690846406308464202084620040846200408462005084620050846200608462007084620120846201908462028084620360846203408462035084620670846200908461908084620370846216908462222084623700846240008462319084623880846252008462651084600850846008608460086084600870846008608460086084600880846009408460102084601070846009708460097084601520846004608459851084600440846023508460278084604950846049408460277084603450846052308460646,
    20000000200000002000000020000000200000002000000020000000200000002000000020000000200000002000000020000000200000002000000020000000200000002000000020000000200000002000000020000000200000002000000020000000200000002000000020000000200000002000000020000000200000002000000020000000200000002000000020000000200000002000000020000000200000002000000020000000200000002000000020000000200000002000000020000000200000002000000020000000200000002000000020000000200000002000000020000000200000002000000020000000200000002000000020000000200000002000000020000000200000002000000020000000200000002000000020000000200000002000000020000000200000002000000020000000200000002000000020000000200000002000000020000000200000002000000020000000200000002000000020000000200000002000000020000000200000002000000020000000200000002000000020000000200000002000000020000000200000002000000020000000200000002000000020000000200000002000000020000000200000002000000020000000200000002000000020000000200000002000000021395450213954502139544021395430213954202139540021395350213952802139517021394950213947202139444021394020213936602139327021392730213922802139178021391080213905202138990021389010213882902138750022642350226423502264237022642390226424402264251022642680226429102264326022643990226447402264563022647010226481802264945022651220226526902265431022656600226584402266044022663340226657202266827021456680214566602145664021456590214565102145637021456050214556302145497021453620214522302145056021448000214458202144346021440170214374402143442021430170214267402142302021417630214132102140847040805000408052204080552040806080408072304080987040817000408265704084119040870310409001104093624040993040410420404109521041170250412321604130003041396640414752104155993041682760417842304189370053085180530851805308508053084750530848905308611053090580530968705310623053124160531426205316588053204690532390705327659053331500533770405342604053497120535562305362016053712100537886605387260062254350622543006225436062254750622554206225658062259150622627006226865062281730622961306231453062345090623721606240205062446820624848106252608062585520626361506269273062772750628384906291106069435970694359306943596069436200694366006943727069438730694408206944449069452830694621606947419069494390695132506953525069567980695949106962413069669220697084306975139069814490698669006992346073042350730423007304230073042450730427507304325073044320730458107304837073054130730607207306955073085070730996307311628073141170731626007318688073223780732557707329147073343750733873907343517076668290766684907666865076668660766685907666864076669180766701907667197076675870766802407668605076696240767060907671776076735380767515207677071076797530768194107684488076886500769217807695846079602400796024007960238079602290796022307960228079602660796032107960398079605380796072707961060079618100796249307963185079643440796540707966573079683800796998007971790079745630797695607979605080877900808779108087792080877910808779008087790080877940808781508087869080880220808820608088449080888670808931708089911080907850809152508092405080938340809506008096401080986020810055108102661081848530818485208184852081848520818485308184853081848540818486708184909081850330818517908185360081856490818596208186390081870160818756408188244081893180819025108191305081929760819446108196128082617890826179008261789082617860826178408261786082617990826182208261861082619430826203008262136082623110826253708262868082632980826367808264198082649800826564308266424082676950826882308270084083012640830126508301264083012590830125608301258083012770830129408301295083012520830122308301261083014880830170508301899083023590830280108303197083037330830421008304788083057640830667408307734083414190834141908341419083414210834142208341421083414140834140808341408083414280834146308341520083416350834177108341950083422020834245508342811083433220834370408344119083448680834558308346396083744220837442208374422083744170837441408374416083744340837445708374481083745070837452508374548083746010837468808374825083750120837518608375417083757320837600308376356083769380837745308378042083887830838878208388783083887840838878508388784083887790838877208388768083887690838878108388808083888740838895508389058083891930838932908389525083898000839003208390317083907750839120208391720083993030839930308399303083993020839930108399301083993060839930908399309083992990839929608399320083994150839949608399553083996600839978408399938084001900840041608400664084010220840140708401931084073710840737208407371084073660840736208407365084073850840740008407390084073140840726108407298084075820840777208407763084077000840777008407972084082950840852408408731084089870840926608409673084116680841166808411668084116680841166808411668084116690841166908411669084116650841166208411664084116850841178508411950084119810841202208412239084123700841242508412617084128770841311708413478084161170841611708416117084161190841611908416119084161140841611108416113084161310841614408416135084160790841614808416361084164320841646108416655084167280841674308416919084171540841737408417722084203220842032208420322084203220842032208420322084203220842032108420322084203230842032308420320084203080842032108420356084203470842038508420523084206030842065708420822084210200842114608421319084221080842210708422108084221100842211108422110084221030842209808422101084221290842215508422164084221310842218608422359084224640842241008422357084225180842274108422882084228610842294608423273084238950842389408423895084239010842390608423903084238790842386208423874084239670842407608424175084242250842419308424135084241140842411208424107084242760842436408424296084244690842466608424723084256460842564408425645084256570842566508425659084256160842558508425606084257790842599108426203084263630842621308425830084256260842570808425797084259630842584708425514084259750842632308426003]

/-- `json_database/acd96_c.json`. -/
def acd96_c : PackedFile where
  temperature := [9930123, 9947732, 9969917, 9984530, 10000020, 10017629, 10030123, 10047732, 10069917, 10084530, 10100020, 10117629, 10130123, 10147732, 10169917, 10184530, 10200020, 10217629, 10230123, 10247732, 10269917, 10284530, 10300020, 10317629, 10330123, 10347732, 10369917, 10384530, 10400020, 10417629]
  density := [11369897, 11400000, 11430103, 11469897, 11500000, 11530103, 11569897, 11600000, 11630103, 11669897, 11700000, 11730103, 11769897, 11800000, 11830103, 11869897, 11900000, 11930103, 11969897, 12000000, 12030103, 12069897, 12100000, 12130103]
  levels := [
    82249850822598908227157082290640823083808232958082365880824003608244058082503240825587108262248082721070828104808291981083113400833009608351833083838190840997108437628084753780850488108534984082141020821474108215530082167410821784208219217082214360822351108226052082299110823329008237312082435360824944208257363082725910828808808306605083350680835928308385496084220810845129708481400082021600820246008202820082034130820397808204679082058400820690508208136082100470821173608213676082167930822012708225097082352680824606208259452082808680830024508322547083534980838026308410366081951620819530908195537081959330819628308196690081974210819811008198855081999900820100608202189082042110820650808210020082173820822540908235606082521550826785708286652083097760833253008362633081887040818874508188842081890330818920308189404081897990819017408190546081911150819165608192327081935400819501308197372082023820820790508215015082265430823812308252475082652160828265508312756081879330818736408186806081861800818579008185418081849360818460408184338081841060818401008183991081843400818509308186421081892480819245108196723082033860821062308220118082232570823613408266211081986410819691208195202081930950819158108190034081879650818646808185093081834710818239208181488081808750818095008181450081828060818454808187019081906970819531308201918082002330821100208241019082254470822221708218803082142110821063108206820082016420819782708194142081894910818628808183598081810660817986608179089081784660817834408178561081785400818000108183349081766040818520108215080082516130824760208243313082371770823200808226278082182600821225708206384081986530819307508188242081834230818082508178724081760560817405908172137081686630816721908167673081564930816320308192992082579780825374808249249082426890823710108230949082220400821518508208540081997210819325208187566081818040817861408175923081724180816969808166921081620920815950908158783081459160815200108181876082570090825274008248089082414130823579408229496082203620821327908206206081966570818960508183353081769390817331408170219081662030816305508159756081541100815084908149413081355510814131708171358082488590824462808239930082332650822778108221703082128850820589708198740081888610818143408174768081678580816392408160559081562470815286708149284081432700813971308137927081236520812933808159507082396380823543108230757082241740821884908213035082045040819760808190500081806000817305808166166081589900815493608151465081469550814344608139856081338060813014408128287081139910811967208149878082231090821894208214405082080340820290908197419081895440818309508176157081663330815876808151642081441630814003808136572081319740812840108124878081188400811516208113407080992060810484508135041081983030819434408190038081839300817903608173906081665930816054208153950081443550813683508129759081222410811800708114477081100170810660008103116080972790809382708092160080780620808373308113908081804680817656708172354081663850816160408156608081495390814371208137338081279160812042308113326081056750810132008097749080933650809005408086669080809760807762308076003080618850806751508097679081602280815639708152336081464740814176608137016081302840812462408118401081092540810191908094794080870520808268608079140080748780807170108068435080629720805983708058379080443460804996808080124081360990813243008128477081227590811818508113571081070800810167108095755080870170807995708073053080653900806100008057525080534520805044908047386080422670803938808038088080241070802970908059856081192830811573608111884081063050810185708097380080911010808590308080257080719060806513408058487080509330804652008043114080392610803646308033598080286790802592208024761080108200801638208046525080938700809039808086604080811520807683808072477080663450806129908055866080477910804116208034585080271070802275908019403080156890801303508010270080054030800269008001623079877570799331708023457080605970805712908053342080479060804361008039268080331550802811608022686080146090800797508001391079939020798954807986186079824660797980907977041079721710796945507968387079545240796008307990217080386790803521408031430080260010802171308017379080112760800624108000811079927310798609407979506079720130796765607964293079605710795791107955142079502710794755507946486079326240793818207968313080154460801198208008201080027780799849607994169079880720798303907977610079695300796289107956299079488030794444507941079079373550793469407931924079270520792433607923266079094040791496007945088079890340798557107981793079763760797210007967781079616880795665607951228079431500793650807929913079224140791805507914686079109590790829907905527079006540789793807896868078830060788855907918684079702940796683207963055079576420795337107949055079429670793793407932508079244300791778707911190079036890789932907895959078922300788957007886797078819230787920807878137078642750786982707899950079438810794042107936646079312380792697107922661079165770791154607906121078980440789139907884799078772960787293507869562078658310786317107860397078555220785280707851737078378740784342507873545079106050790714607903373078979700789370907889405078833270787829707872872078647960785814907851547078440410783967907836304078325700782991007827135078222590781954507818474078046120781016107840278078886870788522807881457078760560787179907867498078614230785639407850970078428940783624607829642078221350781777207814396078106600780800007805225078003480779763407796564077827020778825107818365078654520786199407858224078528260784857207844275078382030783317407827751078196760781302707806421077989120779454807791171077874340778477407781998077771210777440707773337077594760776502307795136078390390783558207831813078264180782216607817872078118040780677707801355077932790778662907780022077725110776814607764768077610300775836907755593077507150774800107746931077330710773861807768729,
    82829560828386408283376082849610828950608291491082948750830184008306605083117330831902808327842083417110835475208370041083939030841492908438594084734480850195708531927085730170860465808636219082772940827826008279511082811680828241308284644082882130829087408295005083004580830345608308782083196580832943008340876083589790837507408393427084211930844477208470524085073980853682908566847082667130826724808267836082688260826982808271017082730460827504308277341082807740828386208287827082945380830076408308351083205350833143508344230083645680838294108404378084369740846403208492417082609130826125308261594082621820826282508263594082648410826602408267436082696600827171008274316082787150828281708287789082958380830330308312538083279850834269408361026083904930841576308442889082562010825637608256577082569130825725708257704082584410825909808259857082611310826238308263888082664320826889808271828082766770828139208287266082977830830884208323445083482040837038708394759082525980825255108252525082525180825249908252406082522950825234808252495082528790825337908254061082552530825641008257823082602430826266108265776082718840827896408288935083068670832355308342015082574690825680008256133082551960825435508253301082517260825067408249910082493140824909608249040082492140824955208250073082510980825223008253869082574660826195208268631082812280829330608306813082767210827457108272390082691500826610308262437082571340825351408250697082480640824655908245288082438580824289608242077082412840824094108240995082419770824365808246515082524460825847308265421082991700829579308292133082863250828069508273890082642410825779108252690082476220824454308241771082383790823596508233658082308600822903708227625082264140822593408225852082263040822705008228179083052680830136608297049082902320828371508275791082645450825700508250895082447570824108108237685082333240823014308227080082232860822067908218502082163060821493508213624082118680821056808209426083036670829962408295120082879260828098408272508082603500825211008245427082385570823433008230470082255340822185308218183082136280821054108207808082048690820294708200810081974800819477508192080082950370829088908286257082789930827211308263644082512890824280008235818082285650822405808219861082144050821030808206331082012780819769308194718081914710818896708186231081820650817844008174690082855590828141108276831082697110826301908254877082429730823460608227569082201990821565308211435082057850820144408197208081918400818810308184945081814150817870908175745081711950816718108163021082688720826480908260369082536090824740908239984082291290822136208214690082074900820283608198362081925180818818308183679081778130817388008170441081665060816366508160561081556940815143308147048082441790824027008235970082297510822446808218218082089200820209108196103081893740818480408180349081743440816968608165019081589810815470408150944081466750814365908140507081355760813116308126594082263060822252008218434082124990820752808202126081942940818821208182670081761910817166308167230081612010815644808151639081454200814101208137061081325860812954108126406081214230811693308112473082064580820277608198801081932450818883408184045081771840817190508166908081607630815630708151921081459800814124108136392081300180812544808121382081168430811378208110615081055920810109808096609081831250817954208175668081704220816647408162256081562940815170208147124081412110813687608132572081266800812197108117176081108200810618708102051080974200809430908091160080862900808195408077502081661500816265008158908081538470815005608146140081406900813640708132045081262990812204608117803081119820810733208102581080962700809165208087483080827930807967608076552080718140806762208063213081418940813849308134833081299390812638008122755081177170811372908109645081041770810004008095893080902130808567208081019080748230807026108066077080613100805816008055058080504980804649608042133081109380810770908104229080994670809595308092566080880400808438408080550080752890807124108067193080617530805745808052971080469230804250308038433080337230803062708027779080235400801958008015395080904910808732408083920080792580807580908072508080681510806465508060985080559060805195408047997080427560803865808034265080284080802427808020292080155200801244808009528080054500800191507997775080687460806569008062451080579230805447008051267080471620804381008040227080353170803159908027853080227980801880408014534080088990800496608001144079965330799359507990870079869130798331607979300080423550803930408036075080315690802813908024969080209090801758208014011080091070800539008001641079965780799257507988294079826440797869907974865079702390796729207964562079606000795699507952976080236160802056808017341080128440800942608006271080022300799891307995347079904450798672707982976079779070797390007969613079639550796000407956163079515290794857807945844079418780793827107934249079972040799415807990935079864460798303907979897079758740797256607969006079641050796038607956632079515590794754707943255079375900793363307929786079251440792218807919451079154830791187307907849079639290796088307957663079531810794978107946649079426380793933807935781079308810792716107923405079183290791431407910018079043480790038707896535078918880788892907886189078822180787860707874581079420100793896507935746079312660792786907924741079207360791743807913882079089820790526207901506078964280789241207888115078824420787847907874626078699770786701607864276078603040785669307852666079187750791573107912512079080340790463907901514078975120789421607890661078857610788204107878284078732050786918907864891078592160785525207851398078467470784378607841045078370720783346107829433078923620788931807886100078816230787823007875107078711070786781107864257078593580785563707851880078468010784278307838485078328090782884507824989078203370781737507814634078106610780704907803022,
    83401370834169108343337083456630834741308349017083510050835328008355964083587210836132808364982083711020837604608381660083919640840222908414777084354820845492808477904085134590854363208575708083313320833288608334532083368590833860908340212083422010834447608347159083499170835252408356177083622980836724108372855083831600839342508405973084266780844612408469100085046550853482808566903083215490832275908324042083258720832727408328594083302240833180908333726083364060833895508342114083470280835128808356449083657230837483608385950084042810842149108441885084737390850117808530809083170060831814108319045083196760832025508321556083246830832631708327159083290740833104208333230083366590834027108344455083498900835566108363838083781540839173408407910084336090845644408481980083111320831156308311900083121050831234208312965083145330831545708316070083172970831851508319941083223470832481008327734083320590833656908342674083532650836343008375753083958910841454708436297083054970830508208304696083042380830394708303719083035460830354508303664083039940830440808304990083060610830719108308725083115740831438708317986083244720833069808338401083519970836569008382898083074740830635408305227083037110830262508301686083007500830014708299567082988750829848508298244082981800829841708298950083001510830155208303561083074660831145008316632083262890833673308350688083143290831216308309922083068440830455508302440083000390829835908296669082943750829268108291105082892880828814008287222082864540828627208286490082875270828912208291669082970960830375608313424083167130831384008310807083065490830330008300205082965160829385608291133082873130828438508281505082778250827529608272971082700500826817608266676082652420826487108265291082672550827045108275820083119690830897508305784083011890829761708294187082900870828709908284005082796170827616208272741082684600826534208262343082587020825617108253885082514800825035208249898082504100825209108255421083029000829981908296530082917930828808608284472082800570827688208273657082690670826541608261739082570110825355008250251082462540824334908240652082378360823615608234952082345380823514608236788082886230828554608282251082774800827373308270076082656120826242708259205082546020825093408247228082424370823901908235759082315370822845708225628082225430822072208219273082179000821762308218097082764870827347408270258082655940826190608258267082537630825059208247450082429660823932008235614082309410822763908224467082203360821736908214628082114300820945008207845082062100820552208205311082575730825462708251497082469930824343708239911082355040823239708229357082251100822167508218166082137140821057408207590082037650820102808198451081952680819315408191389081896130818854008187618082321200822933208226403082222450821897608215721082116110820873908205959082021010819908408196046081920690818924708186632081833860818099708178672081758270817388508172148081701900816891008167622082156380821306808210374082065340820350508200481081966640819402608191535081881860818554708182858081793760817694208174683081718210816975408167775081652750816350108161875081599950815865708157201081995180819725608194886081915040818884908186233081829920818075608178646081758720817373108171558081687060816669008164844081625940816090908159235081571540815561408154133081523970815106408149533081839170818209308180239081776850817568408173641081709770816925608167755081657100816413808162574081605140815908608157759081560090815479808153620081518530815056308149374081477750814647808144924081750240817357108172093081700340816842908166829081648070816345608162244081606960815954008158360081567290815562408154649081533540815236208151364081500010814891508147812081463730814514508143598081658230816484308163824081623520816121908160162081589640815809408157248081562820815553808154748081537400815303508152375081515340815086608150173081492550814847708147616081463830814518208143590081597590815921508158687081579880815746108156944081562860815581008155351081547790815440708154078081536300815322908152826081524290815209708151685081510920815058808149999081490060814796808146505081591010815871508158353081579300815762908157317081568760815659108156348081559970815574408155529081552890815506008154813081545840815438408154108081536660815332708152905081519870815104208149656081612400816102608160832081606120816044508160249081599340815974908159622081594550815934908159254081590870815891508158754081586430815853508158373081581330815786108157498081568700815597108154480081644350816430508164198081641140816406408163986081638170816370508163655081636630816360008163474081633580816334808163338081631820816309008163035081628770816274808162544081618840816103108159690081745690817449608174445081744240817441008174356081742090817415908174165081741220817408408174049081739770817397308173984081738940817382708173789081737040817358208173386081729050817211908170767081549640815490808154873081548650815485408154799081546480815460808154620081545520815453008154536081544670815444408154451081543910815432808154284081542320815409908153882081534790815270908151330081216860812163108121595081215870812157608121521081213710812133008121343081212740812125208121259081211900812116608121173081211130812105108121006081209550812082108120605081202020811943208118052080997670809971208099676080996680809965708099602080994520809941108099423080993550809933308099340080992700809924708099254080991940809913108099087080990350809890208098685080982820809751208096133080765320807647608076441080764330807642208076367080762160807617608076188080761200807609808076105080760350807601208076019080759590807589608075852080758000807566708075450080750470807427708072898080501180805006308050027080500190805000808049953080498030804976208049775080497060804968408049691080496210804959808049605080495450804948208049438080493870804925308049036080486330804786308046484,
    83436630834344608343790083449360834518708343868083409290834168508348482083572790835034108355878083903980840267908410059084277110844327508461679084902490851202808537387085796300861562908654922083305220833053908331001083321880833271708332191083307510833187508337387083447700834089108345654083711080838131308388482084038440841743408433518084587200847871808501814085393400857142108606544083139650831427908314889083161280831700608317479083179290831951508323408083290100832898708332773083468050835439608361298083737750838487808398040084189980843675108456997084885790851572608545595083030590830356808304277083055490830665708307788083094820831137308314200083186290832114508324288083307980833666608343392083539680836343508374671083928340840910808427477084551450847904008505448082914690829207308292796082940000829518408296682082990980830105108302928083061690831018708312980083147520831928108325555083344550834238908351951083673270838077008396099084197530844025308462948082782590827862508279094082799000828065108281524082828820828409808285508082877260828981308292728082978650830202708306756083142610832078408328976083415280834997108360337083796060839630908414763082689770826925208269604082702090827077008271421082724300827333608274391082760860827770508279792082833320828644108290019082956320830065108306838083169280832545908335311083510410836483908380436082557960825595308256157082565210825688208257328082580460825866308259324082603800826151108262934082652340826732508269743082735460827704708281279082881420829427208301411083126230832251208334035082390410823913008239247082394560823965608239894082402760824063608241074082417630824235508243127082444950824569608247095082493680825146808254005082582090826211208266586082735400827998508287632082279000822798008228072082282100822835308228551082288950822917308229424082297850823022908230787082316700823253008233564082352010823667708238429082413310824408508247267082522140825681608262353082161170821611308216131082162040821629708216424082166340821680908216981082172300821750108217890082185730821914808219799082208770822193708223208082251950822695308229040082324540823559708239379082017610820176808201765082017490820174808201771082018630820198808202169082024660820267608202852082031280820350208203904082044670820513908205998082073170820845608209793082119490821389408216260081908320819085208190873081909040819093708190985081910720819114708191221081913310819145508191602081918360819207808192371081928380819328408193826081947020819549608196431081979390819932608200941081784040817840508178408081784200817843708178461081785050817854208178579081786330817869508178781081789260817905008179196081794290817963108179904081803960818081708181291081820450818274108183527081765080817649008176480081764830817648608176482081764540817641608176365081763170817634008176322081762060817618208176176081761410817612908176126081760980817602308175882081756020817532808174927081866720818663108186594081865560818651908186460081863480818625608186177081860830818598408185851081856480818550008185350081851330818495708184751081843510818386908183248081822030818116608179879082028920820289508202856082027230820257208202389082021430820202008202007082020110820177408201523082013300820109108200822082004940820019908199831081991660819844008197463081957570819415208192174082155630821553508215495082154130821530808215149082148750821468108214559082144900821437908214071082134900821328108213138082128120821247008211994082111460821039208209367082073860820543808203092082165690821646208216350082162110821611708216035082159260821580508215619082153380821519508214925082143970821421808214009082134730821308808212749082121560821131908210116082079920820596208203521082097310820973908209725082096460820951308209293082089040820864808208527082085130820837108208031082074710820725508206996082064000820597808205574082049040820415108203094082010560819888708196228081928150819275308192684081925810819249108192383081922020819202608191810081914930819127208191048081906970819037708190033081895720818920908188800081880720818724108186100081840530818204308179492081781090817806308178001081778890817778408177661081774660817729208177097081768200817661008176366081759860817569908175372081748610817447008174065081733940817263608171550081695260816754208165034081602280816018808160125081600060815989808159780081596040815943608159227081589250815874008158533081581610815784208157509081570520815668008156259081555750815488608153858081518430814989708147468081382950813822408138166081381130813806308137979081378000813762408137431081371430813688308136664081363990813603708135651081352100813481608134411081338560813325708132287081303030812838108126029081224410812234108122245081221370812206108121983081218640812175908121641081213780812101708120719081205020812021308119847081193610811900708118672081181820811760808116655081147160811288508110744081000420810004208099996080998590809973508099628080995080809936608099122080987950809880008098777080983870809792008097510080971960809699608096642080959130809535208094627080931240809148708089372080692670806922508069190080691490806910708069040080689010806876008068593080683600806820508068034080677380806746908067174080667640806644808066103080655510806502108064315080629300806139108059425080473480804730608047271080472300804718808047123080469860804684808046683080464530804629908046128080458330804556408045269080448590804454408044198080436460804311608042410080410250803948508037518080241130802407108024036080239950802395408023889080237530802361708023454080232260802307208022902080226070802233808022043080216340802131808020972080204200801989008019184080177980801625908014292079976990799765707997622079975820799754107997476079973410799720607997044079968170799666407996494079961990799593107995635079952260799491007994565079940130799348307992777079913910798985107987884,
    83698690836953908368938083691910837130208374972083788560837828708375291083745210838072808392573084032930840935408417861084322130844450608458724084835670850330308523420085598830859384808631112083574730835731308356964083573220835907408362030083652840836520108363307083631990836840908377905083869610839254408400141084128410842377408436400084582090847602408494702085276210855799608591489083418810834192808341886083423730834368108345759083482390834873508348214083490010835290608359454083664680837143508377884083885080839775108408418084264590844183008458633084870740851293508541671083316270833180408331959083325300833354808335063083370470833790108338275083396880834270408347319083530230835757308363267083725260838066908390076084056720841941808434946084604290848332208508920083207700832108208321441083220970832281408323744083252120832642608327742083298500833189808334470083388160834291608347809083556260836261508370713083837520839576008409900084322400845199408474260083084820830888008309381083100730831051808310950083119470831337508315369083179560831912708319967083230450832658308330615083369510834269508349377083598900836974108381596084001430841646508434944082998930830015408300478083010010830146908302026083030080830402108305268083070740830840308309852083127830831576208319306083250180833001508335788083454600835334708361795083770800839131308407135082877520828790608288105082884560828880608289238082899460829059008291335082924860829349608294702082968500829891908301398083054590830907408313221083199960832621408333497083452220835584108368043082723550827244208272555082727580827296108273209082736030827394708274340082749870827561308276375082776040827879308280264082826240828474008287219082912890829509108299632083070120831371308321484082620450826210308262152082622520826238908262589082629080826315608263410082638280826426608264818082656690826648308267501082691190827060608272379082752250827792208281214082865440829135108296948082510980825113408251158082512120825130108251440082516610825182808251994082522810825260308253001082535150825399108254652082558380825685008257974082599850826187508264071082676980827100308274853082386760823875308238831082388990823889508238853082388460823896308239193082395130823964408239742082402160824060408240910082416160824221908242830082441120824539508246842082490610825112408253646082295320822956108229591082296270822964908229669082297190822979608229908082300730823018408230300082305710823082508231100082315870823201608232512082334430823432408235344082370210823852508240249082159610821596708215981082160090821603308216059082160980821613408216178082162570821633908216437082165750821671108216896082172090821747708217783082183210821883208219439082204520822136708222422082032400820324408203249082032530820324708203236082032270820323908203267082033030820330808203304082033480820337608203387082034780820356908203648082037950820395808204167082044950820479508205161082036620820365808203648082036260820360108203571082035200820347408203420082033390820327108203198082030950820298208202832082026200820243508202218082019190820171108201507082011670820087508200587082124420821241908212392082123420821228808212215082120870821196408211819082116060821143608211244082108950821057608210213082095840820901808208401082074990820671908205831082045040820338708202183082228730822282408222737082225990822250708222431082223120822217208221976082216500822136908221066082206050822014108219544082185970821776108216820082154310821420308212772082105810820870108206638082259130822586808225849082258210822576308225654082254230822518008224895082245290822431908224101082234950822292708222345082213270822039008219348082177520821634508214734082122320821005008207634082227420822269408222658082225990822252508222413082222020822199508221750082213800822107808220739082201620821963308219006082179130821689708215752082140580821257008210836082081160820570408202996082086640820863608208598082085210820843508208320082081250820794408207730082073750820703708206646082060850820557308204928082038400820283108201667081998970819836008196585081937170819120408188403081953590819532708195283081952030819512308195019081948300819463508194394081940230819371708193378081928050819228608191678081906130818961308188466081867070818518908183454081806230817810108175266081788970817885308178792081786950817861708178530081783650817817308177921081775440817726408176968081764050817586308175239081742180817325508172121081704080816895608167288081644980816198908159168081580650815801308157951081578550815777208157679081575350815740408157241081569420815662408156242081557260815523308154597081536130815268808151594081500240814857808146806081440980814170508138964081421200814204908141981081418950814183108141765081416630814156208141422081411220814076608140327081397830813935708138840081379390813706608136009081343170813292308131389081287540812636008123684081183280811828108118223081181380811807308118003081178830811775408117580081172700811696708116616081161280811571508115209081143040811342808112397081108110810944808107892081053540810307008100458080872300808720208087157080870780808700508086919080867790808664508086481080862110808596008085663080851890808475808084246080834040808260008081627080800880807875308077243080748350807266008070146080660750806604408065975080658590806578308065722080656250806550208065325080650270806477408064499080640710806365608063141080623110806151608060550080590650805775508056240080538690805176008049319080428390804280908042740080426240804254708042487080423890804226708042089080417920804153808041263080408350804042008039905080390760803828108037315080358290803452008033005080306340802852508026084080164260801639508016326080162100801613408016073080159760801585308015676080153780801512508014850080144220801400708013492080126620801186708010901080094160800810608006591080042200800211107999670,
    83857610838744208389180083906100839111608391666083932400839518508397601084012610840444808408204084143640842013508427097084386710844915108461099084801910849745008517252085481350857633808609321083743500837576408377231083784820837898108379538083810120838278108384965083882840839117508394565084000840840526708411562084220320843152908442381084596640847525908493178085212290854684008576732083599740836105108362177083632020836369108364259083656080836715308369046083719340837445308377382083820930838653608391990084010700840932908418798084338040844730108462848084873320850967708535676083505040835136108352261083531380835362008354195083554610835685908358560083611650836343808366064083702420837419708379098083872620839470608403264084167700842888608442871084650040848519808508632083404670834108808341750083424700834294408343527083447050834594708347444083497500835176208354066083576800836111808365432083726260837920408386798083987140840936508421693084413360845925008479965083290560832941008329801083303410833080908331399083324780833354308334809083367730833848908340428083434000834625008349896083559870836158308368080083781870838717308397619084144300842975208447377083209410832111708321329083217520832221208322803083238000832473008325825083275440832905208330734083332540833569408338880083441900834907708354784083636110837142508380538083953340840881608424254083093100830937908309500083098480831026208310768083115300831219708312999083143390831555708316903083188550832079108323402083276370833144508335913083429670834923108356481083683560837922808391664082945950829472708294870082950850829528608295547082960210829648708297041082979080829868108299577083009880830226308303820083066700830932508312271083169790832126908326265083344010834191908350667082847970828487008284957082851070828525808285451082857850828610608286495082871250828768208288296082891960829008608291282082932470829507008297232083004980830354208307340083133350831879308325287082742220827425408274300082744100827453308274681082749040827510308275348082757700827616108276595082772210827781808278616082800100828130708282814082852320828743908290024082941960829807308302713082619760826200308262051082621530826225408262362082625020826261508262759082630260826328308263567082639620826434208264864082657720826662208267618082691910827062608272355082752760827798108281101082533100825330508253300082533240825337108253443082535690825368508253817082540120825418108254375082546860825499608255390082560130825662508257397082585140825954908260898082630850826508008267443082407080824076908240820082408370824082508240826082408970824100408241133082413000824141308241509082416200824179208242095082425190824288708243376082441400824482408245652082470280824835508249959082246490822464708224640082246210822461008224619082246870822476708224842082248970822492608224989082251850822533808225426082255730822573608225955082264250822683608227256082281500822896808229774082136270821363508213634082136040821358108213594082137090821384008213944082139510821389808213888082140580821414808214100082142820821448608214565082148970821522508215465082160630821666908217245082017410820174508201741082017180820170308201718082018230820194508202060082021360820213808202123082021160820208408202054082023080820249308202462082026070820287608203099082032740820360908204260081880160818801308188015081880320818805208188072081880870818809008188091081880960818810908188135081881910818820808188195081882670818836108188425081885090818860708188744081889620818916608189416081779220817792208177922081779230817792508177931081779460817796108177975081779870817799108177993081779960817801908178062081780840817810008178151081782200817828408178380081785240817866208178843081631530816315508163154081631460816314008163143081631740816321208163248081632710816327008163263081632550816325908163266081632540816327508163344081633720816338108163446081635400816359708163662081437450814374508143745081437450814374608143745081437430814374108143739081437380814373808143739081437380814373808143739081437410814373908143733081437360814372908143715081437930814385308143848081303370813033708130337081303370813033708130337081303380813033908130340081303400813034008130340081303400813034008130338081303370813033908130343081303440813034508130347081303390813031308130269081153890811538908115389081153890811538908115389081153890811538808115388081153880811538808115388081153880811538908115391081153940811539108115384081153840811538108115375081154110811535308115165080976980809769808097698080976980809769808097698080976980809769808097698080976980809769808097698080976970809769808097700080977080809769808097665080976470809765508097657080976350809760108097562080851920808519208085192080851920808519108085191080851920808519308085192080851900808518808085189080851980808518508085147080851280808513408085134080851300808513408085138080850890808505708085069080676150806761508067615080676150806761508067615080676150806761508067615080676150806761408067615080676160806761408067608080676170806759908067541080675100806752008067525080675310806750608067445080454890804548908045489080454890804548908045489080454890804548908045489080454890804548908045489080454890804548908045488080454870804548708045490080455050804548408045413080453350804532708045340080320660803206608032066080320660803206608032066080320660803206608032066080320660803206608032066080320660803206608032067080320670803206708032066080320570803207108032099080320060803192008031922080143480801434808014348080143480801434808014348080143480801434808014348080143480801434808014348080143480801434808014348080143480801434808014348080143470801434808014350080143400801435708014379079879340798793407987934079879340798793407987934079879340798793407987934079879340798793407987934079879340798793407987934079879340798793407987934079879330798793507987936079879260798794307987966]

/-- `json_database/plt96_c.json`. -/
def plt96_c : PackedFile where
  temperature := [9930123, 9947732, 9969917, 9984530, 10000020, 10017629, 10030123, 10047732, 10069917, 10084530, 10100020, 10117629, 10130123, 10147732, 10169917, 10184530, 10200020, 10217629, 10230123, 10247732, 10269917, 10284530, 10300020, 10317629, 10330123, 10347732, 10369917, 10384530, 10400020, 10417629]
  density := [11369897, 11400000, 11430103, 11469897, 11500000, 11530103, 11569897, 11600000, 11630103, 11669897, 11700000, 11730103, 11769897, 11800000, 11830103, 11869897, 11900000, 11930103, 11969897, 12000000, 12030103, 12069897, 12100000, 12130103]
  levels := [
    61063840607898706051415060139520598485705955476059163060588655905856758058167850578614105755430057144440568321005652071056111200558060805550972055136510548704605461791054297150540590105382261062369860621780606197205061696820615054606133414061115530609307806071369060381660601074405982399059450390591791005892522058623250584232205825002058068310579671905789102057804590577401205767781064037950639443306385223063749120636803206360458063463540633147406313566062889700627293106260968062512580624738206245437062445990624463306244803062446720624404406242600062373570623121606224807064997090649498806490826064864250648290006477952064683440645949306450756064417970643749206434945064332150643256506432157064317480643141106430949064299480642876906426823064204910641316506405498065953730659379606592236065901920658831306585810065816590657851106575972065738610657302406572616065724090657233806572265065721070657187806571447065701890656846506565566065569860654740506537439066881320668774706687382066868280668620206685296066839460668306406682421066818980668168406681562066814500668136206681243066808770668031206679345066768700667370606668898066574850664574406633653067406090674044506740262067399010673947506738923067381500673767006737349067371070673700706736943067368130673667206736503067359980673516306733700067302600672601406719719067064190669347706680210067973370679724806797104067967930679643806795999067954310679511806794936067947640679464206794544067943970679422806793949067931230679188606789839067851790677965506771913067569980674310606728894068474230684732506847143068467620684638306845980068455780684537406845172068450050684493206844820068446520684445606844064068429950684153806839228068339310682770406819287068043810679116706777721068708460687068506870493068701180686976206869433068691040686894506868846068687110686859806868504068683340686808506867649068666090686516206862754068574430685129106842918068285940681626806803794068892880688915806888963068886050688831106888061068878080688768306887627068875630688746906887327068870960688685306886455068854270688398906881670068765540687056206862379068487280683723406825652069040610690394706903772069034810690326806903098069029490690288606902848069026810690253206902496069023490690206306901648069006780689933306897128068922330688646706878581068656680685496506844199069114160691133106911197069109670691080006910675069105640691053006910537069103920691022606910176069100560690979706909367069083830690707606904961069002670689468706886990068744360686408006853665069184780691843106918324069181450691803406917953069179010691785506917765069178040691782506917600069173710691719806916688069156470691442206912423069081130690291206895473068832560687321006863100069232410692318306923107069230040692293706922888069228730692284906922753069226250692256406922492069222870692202806921677069208960691979006917919069137560690875306901720068900680688035806870556069243280692428406924234069241550692410206924074069240400692404306924090069239440692378306923819069237020692339806923055069222970692123306919500069155930691084006904132068927890688317806873444069243930692435706924315069242810692427006924253069242330692423006924233069241630692406206923977069238830692372706923370069225180692146606919869069164030691206106905651068946020688519106875647069240320692401406924010069239150692381406923791069237970692379006923784069238050692380106923725069235820692340506923068069222840692134406919941069167010691255706906506068960670688713706878071069236470692363306923596069234230692327806923254069232690692326106923261069232480692325106923293069232660692305506922612069218280692101806919760069167460691285606907154068971000688836106879470069228190692276606922493069223880692252306922538069225070692251306922513069225150692251906922504069223570692219906922052069213900692047306919304069166200691314306908044068985310688991706881112069217460692163706921039069210380692156906921636069215380692156306921563069215920692159706921481069211460692106806921352069208600691977106918701069164340691348706909165069003380689187106883162069210420692089506920082069201480692093906921040069208970692093406920934069209800692098806920804069203450692032006920888069205080691930606918301069163100691371306909904069015320689316506884522069202980692010906919067069192030692027006920407069202160692026706920266069203310692034006920085069194940691952606920395069201340691881106917875069161780691395306910689069028000689454006885969069194540691921806917913069181290691950906919686069194410691950706919505069195930691960306919267069185250691862206919834069197080691824906917391069160270691422506911581069042430689610606887618069188550691858606917095069173670691896906919175069188910691896706918965069190680691908006918686069178370691798006919435069194060691785006917047069159190691441906912215069052690689721906888791069180130691769506915942069162930691820806918454069181150691820706918204069183290691834206917867069168670691707506918873069189800691728706916562069157680691469206913109069067150689879006890445069169530691657506914490069149400691725006917545069171380691724906917245069173970691741306916835069156450691593406918165069184420691657706915952069155780691503606914236069085380690077006892532069162550691583706913533069140490691661806916947069164940691661806916613069167840691680106916155069148400691518306917698069180880691611006915549069154520691526306914978069097390690207506893907069155160691505506912520069131050691594906916313069158120691594906915944069161330691615206915434069139860691438606917204069177130691561406915123069153190691550406915765069110130690345806895366069146760691416706911368069120320691518906915592069150370691518806915183069153940691541506914615069130160691348106916642069172860691505106914638069151680691577706916660069124610690503206897024,
    57173000571572705712879057053840569522005680029056525780562754705600174055620800553260605502760054631500543325705403251053637050533398405303906052633820523221405200546051586350512747205096723061022250610099406098715060925400608387106070406060450020602098905994232059566140592742005897769058582020582815305797894057580180572883305701690056712290565309905638353056214600560819905592304063970910639610806394237063893320638244006371233063487060632633306300936062652390623828406212549061831260616621606154434061452280614143006139117061371670613584006134024061295360612311706112481065226160652175506520064065159200651020506500430064803430646061006438890064111600639384106381111063708090636661006364346063630170636253406362103063614980636083606359392063554020634974006340173066174950661683106615606066124110660780306600082065848210657091706557489065438140653735506533500065309570653008206529614065292750652911706528938065285080652786306526686065234240651854106510244066964820669605606695266066931970669029906685716066774390667078506665305066606500665883106657888066573170665709606656973066568680665678906656717066564680665598706655126066526710664887706642373067413420674107206740565067391810673726306734396067295870672603806723399067213560672054506720107067198220671971506719683067196440671957206719536067193740671897706718298067163880671339106708185067944630679431106794041067932410679209306790473067879780678631506785138067842620678391406783750067836620678362006783617067835790678348906783453067833830678314706782681067812770677905306775174068475780684746806847232068465790684570706844523068427730684167106840910068403490684013306840032068399910683996906839904068398010683977506839801068397330683945506838949068375740683553906832167068737520687363806873415068728110687200106870899068693090686832706867651068671670686700006866906068668350686681406866808068668100686680006866739068665200686618006865574068640360686196906858745068942310689412606893919068933680689264906891675068902760688942306888846068884240688826806888194068881550688813606888120068881110688809306887997068876910688725806886513068847840688267206879587069099670690987606909699069092360690864306907858069067660690610206905659069053450690522206905163069051220690510006905108069050420690485706904633069043520690399706903120069011040689898406896074069170280691695006916803069164170691592506915280069143950691386506913517069132790691318806913139069131130691311606913133069130870691296106912809069124870691196906911003069089460690678806903970069233330692327206923158069228680692251406922070069214980692118206920983069208440692079506920786069207270692061306920550069205950692062806920483069199810691935606918360069163380691421106911429069269600692691606926836069266390692641106926138069258140692565206925548069254700692544406925436069254220692540606925418069253640692521806925094069247310692403706922911069207920691866306915813069274470692741306927351069272000692702706926830069266000692648006926403069263540692634306926335069263180692631306926334069262780692612606926009069256590692496306923842069217470691964506916844069265770692655106926504069263900692626106926114069259450692585806925807069257730692576106925757069257460692574006925768069257140692555306925441069250630692433606923333069212860691896506916109069247300692471006924674069245870692449106924382069242580692419806924162069241400692413206924121069241340692414506924032069238480692382506923799069234550692278806921773069196280691729006914564069230560692303906923008069229350692285206922758069226500692259706922565069225440692253706922528069225380692254506922460069223720692239306922254069218250692132406920402069182530691596506913360069205420692052806920503069204430692037406920295069202030692015606920127069201060692009906920096069200950692009306920092069201380692016806920021069195240691894106918083069162720691423506911597069173560691734506917326069172770691722006917154069170770691703706917013069169960691699106916991069169830691697806917010069169190691671706916692069165770691601406915076069132790691141506908978069149010691489206914874069148300691478006914720069146500691461406914591069145750691457006914567069145660691456606914556069145770691459306914464069141410691379406913082069114630690973706907486069123740691236506912350069123100691226506912210069121440691211006912089069120750691207006912066069120660691206706912057069120770691209606911966069116050691122806910605069091420690748006905450069095580690955106909537069095030690946106909411069093510690931806909298069092860690928106909279069092750690927406909289069092470690914006909059069087710690826706907670069063330690470006902939069075610690755406907542069075100690747106907425069073680690733606907317069073070690730206907300069072930690729206907324069072380690704106906995069067580690616506905586069043400690272706901156069047470690474106904730069047010690466606904624069045720690454106904524069045160690451106904510069044990690449606904554069044050690408206904084069039210690320106902647069015300689994506898643069012010690119606901187069011630690113206901095069010480690101806901004069009970690099206900994069009770690097206901061069008350690035106900415069003430689946306898942068979880689644006895477068988670689886206898854068988320689880306898769068987250689869706898684068986780689867306898676068986560689864906898759068984820689789206897996068979860689700006896501068956540689413006893391068963920689638806896381068963610689633406896304068962630689623606896224068962190689621406896219068961950689618606896318068959870689528506895432068954860689438806893911068931790689168106891179068935790689357606893570068935520689352806893500068934630689343706893426068934230689341806893424068933960689338506893542068931500689232006892515068926430689141706890966068903640688889606888664,
    57705410576925105766431057590670574945805735186057080990568280505655201056173610558740005556773055174780548939705462901054290890540016705363779052977620523179205154568050455050496687704898031060270120602592006023558060173620600902005996267059713600594743405920705058833370585384205823762057843650575509605726382056889840565937805626881055771920553363805486093054217570537654605337365063444240634358006341787063370390633027706319434062973060627511306249493062127560618381906154404061152060608529106055426060172140599070505967899059453870593405705926242059185140591288905905911065001200649943006497950064939600648810206478511064584750643759006412939063774930634966106322216062892870626886106253245062396400623320906228966062255850622412106223107062215930621947706215366066118140661125106610105066070110660220606594016065764590655804006536807065088050649067606476643064644670645903206455859064539880645369206453840064539940645395106453601064521780644994606445911067005210670008406699235066969640669341706687406066750780666351206652214066408950663553606632389066303800662971806629402066292140662903006628795066285740662841406628068066269220662523006622035067490550674869806747973067460560674335606739162067314120672506806719610067149060671303606712099067114860671123606711084067109800671091806710867067108380671073206710405067093650670781806704932068044180680414506803643068022980680045006797781067936030679074506788699067872100678665006786330067861320678610406786123067861110678605106786003067860270678587306785483067846250678335706780886068544950685422306853825068527700685116106848859068458530684411306842960068421300684182106841658068415630684155706841564068415100684147906841463068413830684125806841029068403860683935106837344068774910687720606876790068757360687414806871916068691180686758106866572068658590686559606865458068653840686535406865324068652930686530006865302068652170686513506864982068644230686354606861916068954060689514506894741068937240689223906890187068876430688624606885301068846340688441206884308068842200688417906884164068841750688416506884137068841040688405106883918068835050688288806881710069100460690982406909462069085760690732506905593069033190690204206901204069006070690040206900305069002280690020106900196069001950690019206900190069001900690015306900069068998460689942706898631069174940691730606916985069161960691510106913593069115810691042306909647069090970690894406908877069087140690864706908658069086760690867906908681069086870690869506908663069084730690828306907885069245070692436906924119069234870692261306921414069198010691883206918149069176980691759006917544069174240691739906917423069173600691732506917343069173930691742306917439069174440691742706917307069289110692882006928652069282310692765206926836069256400692493906924493069241010692396006923931069239240692389306923851069238320692385606923872069238210692385706923956069240480692423006924541069294890692942006929293069289810692855606927948069270330692650706926189069258670692575106925744069257410692569506925646069256690692568806925703069257840692581706925818069259180692622706926767069287050692865806928569069283480692804306927614069269950692661306926353069261690692609206926042069260270692603306926030069259990692598906926006069260560692610206926158069263250692671706927415069262260692619606926140069260000692580606925531069251400692491306924764069246270692457706924566069245640692455206924535069245300692454706924553069245080692456506924710069249450692536906926224069238850692386406923824069237250692358806923394069231190692295606922847069227570692273006922725069227090692269506922691069227030692268506922683069228070692286706922900069231460692366806924628069202560692024306920218069201580692007306919954069197880691968606919615069195670691955806919554069195320691952206919528069195400691950206919509069197600691981806919772069200470692064206921675069152760691526806915255069152220691517606915110069150210691496806914931069149060691489606914888069148850691488206914883069148930691486006914873069151160691515806915140069155620691611006917034069118410691183506911826069118040691177306911728069116680691163206911608069115920691158406911577069115770691157506911575069115860691154606911560069118610691196006911935069121740691267806913666069083890690838606908379069083630690834106908308069082670690824406908230069082180690821306908211069082100690820806908208069082120690819706908202069083090690830906908256069084160690897206910134069041530690415106904147069041370690412306904103069040760690406206904052069040450690404206904041069040400690404106904040069040380690404706904044069040090690413506904368069046400690511806906145069012070690120506901202069011950690118506901171069011520690114106901134069011290690112806901127069011260690112606901126069011250690112706901127069011320690123906901449069018170690224206903122068972620689726106897259068972540689724706897237068972250689721906897215068972120689721106897210068972100689720906897209068972140689719606897202068972910689715406897035068975600689798006898716068923050689230406892303068923000689229606892290068922830689228006892278068922770689227606892275068922760689227306892274068922850689224206892257068924530689199806891451068921760689259106893144068890420688904206889041068890390688903606889032068890270688902506889024068890230688902206889022068890230688901806889020068890350688897606888996068892620688859906887770068886250688903706889468068855850688558506885584068855830688558106885578068855740688557306885573068855720688557106885571068855720688556706885569068855890688551206885539068858790688499406883865068848590688526706885570068816560688165606881656068816550688165306881651068816490688164906881648068816480688164706881647068816490688164206881644068816690688157306881606068820310688089406879426068805770688098006881136,
    59308750593087505930875059308750593087505930875059308760593087605930874059308750593088105930868059308770593095905930773059303940593074205930306059282710592741705924897059157040590387105886601061069760610697606106976061069760610697606106976061069770610697706106976061069760610698006106971061069770610703406106905061066230610681606106448061048610610392706101547060934910608285606067037063288370632883706328837063288370632883706328837063288370632883706328837063288370632883906328835063288380632886406328804063286440632864406328361063273370632630506324099063174770630835006294360064749720647497206474972064749720647497206474972064749720647497206474972064749720647497306474972064749720647497806474965064748850647475706474531064738770647278006470689064650120645687806444092066175550661755506617555066175550661755506617555066175550661755506617555066175550661755406617556066175550661754306617569066175570661732506617133066167770661568906613774066089970660187106590344067245470672454706724547067245470672454706724547067245470672454706724547067245470672454706724548067245470672454106724555067245260672433606724139067237780672294606721404067173120671115806700946067768190677681906776819067768190677681906776819067768190677681906776819067768190677682006776819067768190677682506776812067767510677668106776547067761310677545106774147067704790676494406755593068267540682675406826754068267540682675406826754068267540682675406826754068267540682675406826754068267540682675606826752068267660682681406826687068261830682571706824671068213710681657406808417068637260686372606863726068637260686372606863726068637260686372606863725068637240686372406863724068637240686372306863726068637190686366906863551068632490686282206861952068594070685552906848628068778290687782906877829068778290687782906877829068778290687782906877829068778290687782906877829068778290687782906877830068778290687780806877721068774590687711106876389068742160687088406864947068876730688767306887673068876730688767306887673068876740688767406887673068876700688767006887670068876700688766706887673068876700688761106887532068873840688711306886554068849370688244306877950068949800689498006894981068949830689498206894979068949710689497206894986068950130689501506895012068950120689501306895011068950010689498606894960068948770689473006894426068935360689216406889720068987300689873006898730068987320689873206898728068987200689872106898735068987640689876706898762068987630689876906898756068987180689871606898713068986660689859606898468068981090689755106896528069027960690279506902783069027580690276006902807069029020690289206902717069023740690234206902385069023730690236906902375069023800690237606902384069023840690233506902453069029630690338706903882069051760690517606905179069051850690518406905173069051520690515406905194069052670690526806905272069053160690532206905314069053120690531706905316069053100690534106905512069061890690727206909129069056950690569506905695069056950690569506905695069056960690569606905694069056920690569306905690069056790690567806905679069056790690568606905668069056820690587106906144069068470690819206910480069052050690520506905204069052020690520206905205069052120690521106905199069052070690525606905144069047860690475106904798069047900690479906904793069047910690494406905316069063720690791706910455069032190690321906903220069032200690322106903224069032290690322806903219069032250690326306903177069029030690287406902921069029110690284106902818069029150690302606903356069044490690601706908787069011240690112506901126069011280690112906901129069011280690112806901129069011320690113306901131069011150690109906901139069011160690080106900731069011250690108406901223069024170690412406906892068976450689762906897610068975810689756506897562068975740689757606897553068975090689751106897502068974470689741906897385068973420689736306897363068973450689748806897839068988140690029506903068068921880689216706892150068921390689213606892136068921340689212706892110068920860689208706892081068920390689200206891977068919600689193406891917068919420689202506892283068932200689477306897558068881410688812706888120068881220688812306888115068880900688807006888059068880620688806706888055068880030688796406887948068879470688791606887883068878900688796706888214068890960689055006893179068836080688361006883606068835870688356506883541068835100688349206883481068834830688349106883473068834190688342206883416068833550688331206883284068832940688339006883631068844290688578006888278068782140687819006878175068781700687817006878164068781420687812406878112068781150687812506878102068780360687804006878033068779640687792906877904068778930687796706878194068789450688016306882468068743310687433306874323068742900687426206874245068742430687424906874250068742510687426206874237068741660687417306874160068740870687409306874075068740090687410006874329068749910687613106878332068688370686884006868849068688600686885906868843068688010686877006868756068687580686875406868763068687690686870506868666068686800686862206868568068685930686866406868810068693630687043806872526068620340686202806861991068619060686184606861820068618470686188206861904068619000686189906861900068618790686182806861790068617760686173306861681068616730686176606861974068625130686334806865155068575630685755006857479068573170685720906857174068572570685734706857396068573890685739206857383068573330685729906857265068572190685719606857152068571060685721906857482068580200685868406860296068528230685280406852695068524520685229306852250068523910685253806852619068526070685261506852594068525130685249906852469068523890685238806852350068522650685239906852720068532570685373906855146068474350684740806847257068469210684670506846652068468600684707306847187068471710684718306847150068470340684704106847016068468970684692106846892068467620684692006847306068478430684811906849290,
    20000000200000002000000020000000200000002000000020000000200000002000000020000000200000002000000020000000200000002000000020000000200000002000000020000000200000002000000020000000200000002000000020000000200000002000000020000000200000002000000020000000200000002000000020000000200000002000000020000000200000002000000020000000200000002000000020000000200000002000000020000000200000002000000020000000200000002000000020000000200000002000000020000000200000002000000020000000200000002000000020000000200000002000000020000000200000002000000020000000200000002000000020000000200000002000000020000000200000002000000020000000200000002000000020000000200000002000000020000000200000002000000020000000200000002000000020000000200000002000000020000000200000002000000020000000200000002000000020000000200000002000000020000000200000002000000020000000200000002000000020000000200000002000000020000000200000002000000020000000200000002000000020000000200000002000000020000000200000002000000020000000200000002000000020000000200000002000000020000000200000002000000020000000200000002000000020000000200000002000000020000000200000002000000020000000200000002000000020000000200000002000000020000000200000002000000020000000200000002000000020000000200000002000000020000000200000002000000020000000200000002000000020000000200000002000000020000000200000002000000020000000200000002000000024911570249229702493499024952360249669602498241025001570250131402502219025035800252110202514520025072180251625202531453025288940252236602522804025231660252237902521850025210450251947602516382045350330452740404520652045217200453659404557895045571850450457204408351043053550428824004289753042921200428978204286626042875600428922004289253042894600428977304289843042898400428989404289662050198030501992405020058050202010502026105020437050212760502277905025779050321680503545305035125050345320503510005035932050357390503534005035333050352250503506205034914050345930503403505032987055800690558017605580285055803730558036405580439055812510558285205585440055892130559072505590624055904120559064005590946055908690559071305590700055906680559059005590488055903300558998605589321060177440601774706017769060179340601824506018720060194300601988706020203060204320602049006020513060206280602063306020527060205250602059006020626060206100602061706020657060206330602057506020518062304880623055106230601062307380623096906231344062320200623262406233242062339090623417106234228062342570623429206234310062342640623425806234308062343300623435506234417062344870623461506234943064429360644294306442968064431320644343606443900064445900644502706445327064455640644566906445733064457510644576606445805064458530644589306445930064459290644595506446052064463140644676006447580066092480660928906609342066095120660977906610176066107910661123806611610066119610661210106612156066122130661222006612190066121900661219506612200066122920661234206612390066127600661327906614027066788300667886306678920066790900667933506679688066802340668063806680986066813220668145806681506066815420668158006681614066815950668158106681592066815790668162006681747066819930668238206682979067293270672934706729375067294900672969106729994067304550673076606731007067312400673136906731445067314240673146606731597067316300673160906731593067314580673143406731544067316610673188806732229067663200676632806766351067664300676655206766727067669940676719206767366067675350676759906767614067676330676764006767643067676850676770306767676067676040676757306767582067676100676764406767602067833950678339906783408067834460678350906783603067837470678385906783965067840770678411906784126067841280678412606784121067841270678412006784096067840700678403606783986067839480678389206783688067986420679864806798643067986340679863606798646067986580679866406798672067986870679869306798690067986840679867406798661067986490679863506798614067985910679855106798489067984090679828106797988068089340680893506808937068089280680890306808857068087700680869506808629068085630680852806808507068085060680846406808379068083380680833406808315068082870680825606808210068081160680799306807749068127100681271106812708068126890681265306812594068124870681239406812308068122120681215606812131068121610681204906811813068117450681177106811741068117170681170906811685068116140681152106811331068145950681459206814589068145720681454006814486068143830681428906814195068140900681403606814006068139990681397706813935068139340681393506813908068138890681387306813856068138580681367806813334068151300681513206815131068151170681509006815043068149550681487506814795068147070681466206814638068146240681462006814618068146090681460206814596068145910681458606814575068145340681450706814432068150910681509306815092068150810681506006815024068149550681489106814825068147490681470706814683068146760681466506814656068146900681459706814398068143610681440306814386068143540681433306814288068146830681468306814680068146710681465706814634068145880681454206814492068144340681440506814389068143780681437306814373068143750681438006814341068141000681397006813982068139820681396706813969068132690681326906813269068132660681325906813248068132240681320006813172068131390681312106813111068131050681310206813100068131010681309606813086068130790681306806813065068131070681299906812774068117970681179706811795068117930681178906811783068117700681175406811734068117110681170006811695068116900681169106811691068116740681170806811720068113950681120206811228068112320681125006811329068102930681029206810291068102890681028706810284068102770681026706810253068102380681023206810230068102240681022906810231068101910681027606810321068096010680917806809238068091960680936706809816068086660680866506808664068086620680866106808661068086570680865106808642068086330680863006808630068086240680863306808635068085680680871206808797068076250680693806807038068069430680728606808153,
    20000000200000002000000020000000200000002000000020000000200000002000000020000000200000002000000020000000200000002000000020000000200000002000000020000000200000002000000020000000200000002000000020000000200000002000000020000000200000002000000020000000200000002000000020000000200000002000000020000000200000002000000020000000200000002000000020000000200000002000000020000000200000002000000020000000200000002000000020000000200000002000000020000000200000002000000020000000200000002000000020000000200000002000000020000000200000002000000020000000200000002000000020000000200000002000000020000000200000002000000020000000200000002000000020000000200000002000000020000000200000002000000020000000200000002000000020000000200000002000000020000000200000002000000020000000200000002000000020000000200000002000000020000000200000002000000020000000200000002000000020000000200000002000000020000000200000002000000020000000200000002000000020000000200000002000000020000000200000002000000020000000200000002000000020000000200000002000000020000000200000002000000020000000200000002000000020000000200000002000000020000000200000002000000020000000200000002000000020000000200000002000000020000000200000002000000020000000200000002000000020000000200000002000000020000000200000002000000020000000200000002000000020000000200000002000000020000000200000002000000020000000200000002000000020000000200000002000000020000000200000002000000020000000200000002000000020000000200000002000000020000000200000002000000020000000200000002000000020000000200000002000000020000000200000002000000020000000200000002000000020000000200000002000000023448780297529903563078039338710391611303805018037479590376607003765470037615990376291503762879037626020376269603762693037626740376268003762680049977200499186004995685050265730504841305033652049112100476512904628930045430110454712604572869045860900458189304582032045829290458262504582633045826970458267504582676045826810458267904582679051927050519411505193195051857650518051205184063052135130524864805281407053020720530108305294891052917110529272005292687052924710529254505292543052925270529253205292532052925310529253105292531057951480579536305795223057940920579329205793832057983160580366505808652058117980581164705810704058102200581037405810369058103360581034705810347058103440581034505810345058103450581034505810345060800300607987306079976060807990608138206080988060777230607382706070195060679030606801306068700060690520606894006068944060689680606896006068960060689620606896106068961060689610606896206068962063276000632761706327606063275210632746006327501063278390632824306328619063288560632884506328774063287370632874906328748063287460632874706328747063287470632874706328747063287460632874506328745065339600653396506533962065339380653392206533933065340250653413406534237065343010653429806534279065342690653427206534272065342710653427106534271065342710653427206534273065342640653425806534259066216410662163906621640066216510662165906621654066216110662156006621512066214820662148406621493066214980662149606621496066214960662149706621497066214950662149806621502066214730662144606621445066862690668626906686269066862660668626406686265066862750668628806686299066863060668630606686303066863020668630306686303066863030668630206686302066863020668630206686301066863060668630806686305067350800673508006735080067350790673507906735078067350800673508206735084067350850673508506735084067350840673508406735084067350840673508406735083067350830673508406735083067350840673508206735080067584870675848706758488067584900675849206758494067584920675849006758488067584870675848906758491067584920675849106758491067584900675849206758496067584950675849306758495067584960675850306758513067817880678179006781787067817680678174606781729067817230678172806781731067817180678169706781678067816710678167306781674067816800678166606781627067816180678161906781587067815410678149706781431068014590680140106801351068013190680131606801317068013050680128106801253068012150680119206801175068011680680117206801162068010380680095006800948068008890680081206800759068006140680044406800253068085350680842706808314068082140680818406808178068081870680819806808211068082250680823106808229068082150680823706808268068080670680786506807810068078270680787406807912068076930680741406807187068131290681316206813167068130880681297806812866068127790681276306812768068127800681278406812786068127890681277906812767068128350681279906812594068124350681246006812488068122980681207606811922068157140681571306815718068157370681574706815730068156330681552306815425068153720681538406815409068154170681541106815412068154070681542806815445068152220681507606815119068149360681475906814783068163750681637306816372068163750681638006816386068163920681638406816349068162450681614506816070068160660681609206816092068160830681608306816087068160720681599006815843068157460681569506815566068162070681620706816206068162060681620506816202068161890681618106816190068162430681627506816238068160120681586406815867068158930681588406815889068159380681586606815652068155920681558806815396068146800681468506814704068146990681467206814641068146230681462506814631068146290681462206814621068146400681464906814644068146690681462506814470068143260681433106814363068141980681405906814051068134450681346106813445068133490681324106813140068130730681307306813093068131140681311706813112068130990681309506813097068130860681310506813134068129350681275006812736068128460681280706812569068112640681125906811265068112970681133206811365068113870681138706811381068113720681136906811372068113820681137806811369068114250681132906811034068109550681105706811054068110540681097306810769068086540680862006808661068088720680910606809323068094680680947006809426068093740680936206809375068094240680942506809399068095480680929206808547068086300680913606809156068089650680881406808694]

/-- `json_database/prb96_c.json`. -/
def prb96_c : PackedFile where
  temperature := [9930123, 9947732, 9969917, 9984530, 10000020, 10017629, 10030123, 10047732, 10069917, 10084530, 10100020, 10117629, 10130123, 10147732, 10169917, 10184530, 10200020, 10217629, 10230123, 10247732, 10269917, 10284530, 10300020, 10317629, 10330123, 10347732, 10369917, 10384530, 10400020, 10417629]
  density := [11369897, 11400000, 11430103, 11469897, 11500000, 11530103, 11569897, 11600000, 11630103, 11669897, 11700000, 11730103, 11769897, 11800000, 11830103, 11869897, 11900000, 11930103, 11969897, 12000000, 12030103, 12069897, 12100000, 12130103]
  levels := [
    64274840642924506431354064347540643772606441011064463810645133906456935064654540647292006481404064943240650557806518292065372330655326206570813065951290661343906630681066481640665783606667029064116640641286706414228064165670641872406421086064249210642845006432417064385430644394406450047064595440646789106477193064912740650337606516628065354720655015306564250065786550658662306594195063934120639413906394947063962820639759706399207064015850640366606406203064100570641343206417437064235890642894806435080064443420645222406460897064734360648318906492248065008400650510506509069063813020638184706382485063834810638437106385413063871210638869806390512063932230639566406398639064031580640704206411526064184220642426606430537064395870644648606452503064578220646026706462501063787820637898306379196063795710637996306380446063812520638202706382977063845080638589006387507063901570639245306394881063989410640260706406372064117170641566306418815064215360642287606424126064189950641853706418062064175110641708906416552064158920641551706415203064149910641498606415079064154620641586406416224064169740641779706418685064199060642077906421493064221180642242006422702064644200646372706462992064619730646106806459946064583980645736706456468064556120645518106454839064544850645426606454064064538980645382506453728064536760645372106453777064537320645359106453405065123900651155006510584065091070650772006505998065034390650170306500367064991460649850306498021064974860649714406496904064966610649651606496420064962570649612506496051064959050649566606495291065441350654320206542041065402010653837606535981065324890653023606528566065270670652626506525694065250740652466006524363065241060652393806523736065234910652337206523284065229910652254206521864065510620655013106549015065470190654495506542431065388210653645106534669065331450653238006531749065311010653075606530484065301910652998606529752065294930652938606529326065291900652896206528561065499730654902206547857065459020654394006541486065380820653592206534226065327380653197306531306065307500653046506530078065297400652960506529358065291470652912606529079065290460652903706528937065412350654022406539072065372980653560306533519065305950652872106527337065260610652532806524760065241930652381406523446065231950652309406522876065226900652267406522670065228200652303906523184065315860653058206529429065277330652622506524448065218910652019606518984065178590651719506516695065161020651570706515453065151220651488906514813065146290651446406514561065148850651512006515282065143480651347306512416065109300650967606508187065062420650504106504086065030870650248706502021065014490650108906500885065004400650008106500035064999270649976306499814065000690650027406500438064888400648797306487034064856860648458806483465064820670648114806480355064795070647897406478472064779000647753406477196064768760647669806476494064763270647630106476314064764400647659706476743064709470647008506469160064679010646693606465970064647720646395406463198064623670646182906461298064607710646047006460124064597420645954706459385064592400645917106459125064592050645936206459520064514260645056706449737064485380644759706446779064457440644497806444292064435330644302506442525064419980644168406441352064409330644070106440580064404810644041106440375064403890644043006440469064294040642862806427877064268390642599306425148064241960642359906423019064222760642178006421373064208540642049306420242064199600641973006419510064193870641941106419445064194620641945606419446064155720641480406414114064133010641263106411832064109510641044206409883064091540640868706408306064078370640752706407326064071250640694506406727064065770640657306406569064066250640672206406828063980570639738706396902063963110639581506395329063946120639407106393650063932110639289806392574063921850639194006391722063914240639123706391151063910510639096206390920063908860639085306390822063762240637568806375475063751510637486606374808063743110637371406373484063734460637334106373093063728050637264006372392063719490637174506371840063718150637162506371547063713840637114506370890063618430636139706361364063612190636107706361306063609600636033206360229063604540636048606360287063600670635995506359687063591490635893606359150063591790635893106358835063585890635821306357806063466010634625106346413063464650634648406347026063468540634620206346238063467420634691806346774063466260634656806346281063456460634542306345762063458560634555206345446063451210634459706344021063292780632904006329429063297200632993906330856063309130633025706330457063312700633161106331533063314640633146006331157063304260633018506330666063308460633049206330389063299920632929906328522063169900631683606317391063178660631824206319442063196890631905206319372063203970632085406320828063208120632083906320532063197430631948306320063063203200631994106319853063194250631861306317687062996780629964706300448063012100630184106303473063040420630347606303973063052790630589906305954063060100630606606305766063049190630461706305336063057290630533406305297063048680630389606302749062778840627802606279165062803560628138506283642062847500628438406285122062867300628755406287732062878630628791806287658062867990628640906287294062879280628756406287662062873520628620806284772062635450626381406265202062667390626809806270835062724160627227906273187062749440627589806276176062763440627636206276158062753460627486206275849062767030627640206276653062765330627531306273692062483650624878906250472062524520625424506257573062597920626001406261111062629620626404806264457062646470626458006264472062637760626314806264232062653920626520306265692062659110626466606262868062311440623177706233853062364690623889606243025062461900624700406248324062501710625139906251992062521780625194106252001062515450625067906251856062534750625348106254353062551790625400406252059,
    65360600653834306540757065444490654802806552602065600420656655406574003065853440659508506606053066232930663885806656338066821710670400406727723067611760678769806814781068508110687765006903304065204510652201806523589065260720652864106531872065370400654160206546907065550200656202406570160065831860659494006608232066282060664519506663885066913140671397006737977067713350679715406822402065020360650300806503971065055370650716206509062065121340651506206518533065237910652831906533727065424630655028206559199065728550658478506598261066185760663587706654850066822500670432106726979064902030649084406491537064926820649384506495285064976170649973506502228065060910650950506513583065200690652585006532623065431050655219506562562065784700659223706607538066301090664874606668250064790310647945406479910064806680648144006482383064839310648537106487054064896820649205806494917064996540650397906508767065161280652281606530490065423360655272806564340065817430659647406612191064813230648115906481031064809290648088306480800064807660648094306481287064820500648295006484180064863230648834506490740064946880649842506502841065097800651602206523424065350980654531306556693065065280650570606504906065037080650251906501041064987700649715206495943064950850649488206494848064951150649564906496346064976950649921206501127065042870650733106511294065179780652409006531245065540010655244406550751065479030654488406540947065348500653054406527261065244610652304106521925065208750652026906519627065189790651874406518589065186380651895806519563065209270652239406524187065887950658681006584494065802700657560806569555065606390655474106550342065465160654461706543208065417350654075206539906065390130653842506537945065374830653718706536918065365790653624606535611065979090659583606593313065886220658346506576786065670120656056506555752065516550654972306548317065468040654580006544940065440440654341006542801065422050654186306541534065409200654012006538893065987900659669306594127065892870658391506576985065668490656016906555192065508540654879806547389065459250654493806544102065432050654249406541845065412620654090806540550065398080653890406537558065919230658985306587346065827010657757406570869065609160655432706549409065451020654301206541572065401240653912906538305065374770653687606536362065359680653565306535287065348740653430306533214065833650658136506578963065745680656976906563533065542320654794806543190065390760653714806535804065343350653339106532656065318560653127706530765065303910653013506529823065296340652934806528577065676320656574606563555065596980655556106550171065421110653663506532420065287740652709206525845065244290652355006522868065221410652165206521220065208680652073706520664065206870652060906520214065437220654201906540033065367970653362206529531065234630651939906516198065132960651191206510838065096290650885406508143065073380650690306506660065065300650645706506374065063650650642906506329065265810652497606523228065205040651790106514707065099480650664206504183065018620650043906499402064983640649763606497030064963690649589006495481064952000649517906495179064951480649510406495003065081790650676506505163065028290650083806498359064947740649239906490472064885730648750606486612064855760648486906484269064835850648311406482749064824240648225706482170064821410648211206481991064879000648664706485305064834130648186606480140064777480647608506474680064732220647234506471591064707080647009006469503064688350646845306468114064677400646756906467447064673150646723906467123064749430647381906472675064711030646983806468511064667440646550106464435064632540646247806461808064610460646052506460027064594200645903206458715064584010645823406458092064579450645787406457779064602140645934706458483064573180645641506455552064544680645368006452962064521310645157606451052064504670645012406449761064492610644895006448739064485230644834306448200064480960644803906447923064494280644893906448449064477920644729006446804064461970644577606445414064450110644473106444437064440400644376106443516064433120644323306443070064428110644272306442719064426840644257506442520064472580644694006446567064460850644580906445592064452770644498506444743064445090644433506444128064439260644386006443701064434570644337706443301064431660644307106443035064430630644307306442990064483540644814806448007064478370644765506447452064472340644713006447029064468950644680506446705064465820644650806446418064462710644618106446163064461300644603306445991064460120644601606446001064505100645041406450585064508300645070006450401064501960645033206450407064503680645037006450403064503140645012506450104064501480645005606450081064501430645005106450027064500140644994706450058064520400645202106452412064529490645285506452483064522810645258506452783064528110645287706453006064529410645267006452698064528780645278506452842064529710645288306452873064528340645271806452918064541950645428406454986064559320645588506455408064552070645574606456116064562380645639606456659064566270645624106456339064567120645661706456718064569420645686006456869064567950645660806456933064569100645713606458227064596880645969906459086064588830645971606460303064605410646081506461247064612590646072706460913064615290646143206461590064619330646185806461892064617730646149706461980064586990645901406460362064621620646220906461507064613020646232906463058064633730646372306464267064643060646367906463923064646990646460106464796064652180646514806465198064650500646471406465302064605950646100406462625064647830646487006464073064638650646509706465977064663740646680406467467064675360646680706467112064680590646796006468194064687000646863506468701064685220646812406468822064627500646326706465197064677630646789506466989064667780646824406469295064697850647030706471104064712080647036306470738064718780647177806472056064726570647259906472684064724700647200106472824,
    66126290661440506616574066201140662320306626528066314320663655806643170066536240666311906674454066926040670777006724534067513810677552706802477068410610686760906892207069265240695341806980682065993030660066506602325066050320660740406609976066137870661769706622732066308590663833306647193066611750667311306686570067081090672762006749623067815800680597706830575068648930689178606919050065824980658334506584376065860560658754106589177065916240659403606597133066023700660731706613098066219340662984906639160066541010666782906683630067072800672761606749935067816320680696006833125065714860657206406572776065739600657501006576151065778390657955906581796065855100658900506593122065994940660519406612012066233770663381406645865066644450668060706698580067249980674702306770575065629800656322506563558065641630656474306565420065664860656753506568907065713400657362406576301065805550658444706589151065970640660448406613199066268130663891606652726066737450669183206711676065700980656948006568902065682060656776306567425065671900656721406567405065678840656852306569451065711210657279206574968065789340658288506587739065957140660316606612076066263990663922806653783065854000658408706582783065810830657987206578788065776170657689306576250065754740657503806574789065747570657501906575608065770440657874506581056065851850658936206594680066037420661218106622232066045770660278106600939065983870659646906594684065926490659125506589892065880840658676006585521065840730658319906582521065818780658168806581815065825190658359506585281065886170659202906596479066131540661100406608768066056960660343206601382065991170659746406595746065934770659177706590127065881250658677606585566065841630658326406582530065818650658164806581686065821120658280206583867066106490660855806606362066032590660091006598730065962700659454906592811065904330658863706586913065848220658340806582128065805920657956306578689065778400657740906577143065770430657718206577523066036520660166506599590065966440659438606592250065897710658805906586365065840480658233806580703065786300657727706576087065745580657355506572723065717930657126706570901065705940657051106570556065922770659035506588367065856050658351406581538065792280657765906576143065740810657251106571011065692390656803306566918065655760656467206563887065630620656256506562165065617950656157306561412065821950658035406578465065758740657392506572078065699060656846306567074065651090656366206562312065606340655953806558570065573310655650506555799065549860655449706554103065536460655339206553230065655830656392506562202065597840655795406556248065543040655295706551655065499960654869606547403065459330654497506544079065429370654221006541590065408000654035606540025065395570653929506539143065421460654065306539158065371470653561406534092065321690653092906529857065284630652737906526298065249700652408606523289065223200652173306521237065205270651996006519500065192220651895106518583065270280652565306524286065224710652110306519756065180700651702706516078065146300651369106512874065115960651080606510174065091890650861006508200065075420650698506506518065061910650596806505688065126000651137506510213065087870650773006506618065050660650413006503366065022140650140406500688064997110649904906498469064977130649721606496780064961870649574506495338064948750649459206494331064994960649861206497727064965500649567106494820064937750649307606492450064916700649108706490509064897810648930706488878064882930648788906487520064870160648665806486311064858010648543406485087064923270649166006490985064900550648934906488676064878830648736806486904064863030648584406485383064847970648443106484110064836460648330106482974064825400648221406481888064814450648109206480719064852610648481706484385064838140648337806482938064823720648202306481732064813410648104106480757064804150648015106479888064795930647936806479131064788220647856006478282064779400647765506477322064816010648135406481125064808540648065106480428064801020647992006479794064796010647943106479260064790640647895406478853064786660647852406478392064781990647806706477928064776700647748106477297064822080648206706481929064817450648161106481486064813370648121506481102064810190648094306480836064806990648062006480547064804160648034306480288064801670648004706479926064797840647967006479537064848390648477106484703064846060648452906484452064843550648428306484222064841770648413906484088064840220648397406483921064838420648380306483777064837160648365606483591064834920648340006483312064896830648965006489620064895790648954506489507064894530648942006489390064893380648932506489325064892850648924206489214064892110648919406489156064891080648907806489046064889950648895506488921064939740649395606493938064939070649388306493867064938580649383506493802064937770649376906493760064937390649372106493706064936910649368306493667064936240649360006493585064935520649353806493529065003850650038306500380065003680650036206500367065003910650037506500354065003960650036706500297065003160650037306500391065003020650028806500324065002900650030106500336065002860650027306500297065084750650849406508510065085240650853906508571065086330650862706508623065087480650869306508545065086140650876706508827065086420650862206508722065087010650875506508855065087820650877006508835065138040651383706513865065138960651392506513975065140630651406206514069065142500651417706513978065140790651429606514384065141350651411106514253065142420651432406514467065143780651436606514458065194530651950006519542065195900651963506519703065198180651982406519843065200820651999006519737065198730652015706520274065199590651992906520117065201140652022706520415065203110652029906520419065258750652593806525995065260630652612506526215065263600652637306526406065267120652659906526283065264590652681906526970065265790652654406526783065267910652693806527177065270540652704306527196,
    66436910664572306648351066527020665652706660692066667160667185406677670066871770669663806707959067257530674177706759782067863090680867906833659068717820690488806940590069811600700580307031584066308120663247506634611066381500664128406644735066497800665408006658911066667690667463606684115066990550671245506727544067499190676888706790202068229370685144606882334069195280694417106969952066145880661578306617301066198160662208006624631066284420663168806635279066410580664691806654076066654200667551406686929067040720671875506735452067613990678411506808941068418810686652406892305066039010660478906605899066077400660943006611390066143880661693906619712066241230662866006634289066432650665118206660177066738740668573306699390067208640673976606760598067907280681535906841130065925760659316706593889065950910659622806597596065997590660160706603585066066960660993506613990066205200662634706632975066431420665217406662751066795610669448806711166067357540675640606778734065797580658014706580619065814000658213306583008065843980658562406586996065891980659139806594035065983380660250906607204066141790662060906628268066404700665138406663782066825560669867406716551065707640657105906571412065719850657252006573159065741790657508406576104065777400657936906581386065846930658773106591241065966500660147306607338066170050662558706635336066502920666338006678078065582460655840406558618065590050655938006559829065605260656111006561723065627050656378806565151065673470656935106571657065752850657866906582726065892490659512706601862066123130662168606632357065427720654288706543009065431840654336006543605065440370654440306544761065452990654591006546657065478430654900206550360065524710655444006556830065607300656426406568355065747300658039606586965065328650653293906533022065331450653327106533447065337520653400006534227065345550653495206535450065362440653701706537950065394320654076606542366065450210654749306550352065547580655868606563270065226610652274306522820065229060652298206523085065232690652341906523556065237470652397806524325065249320652542406526000065269270652771006528711065304840653206606533884065367850653945406542507065118160651180806511827065119070651200406512127065123000651239406512419065123950651247606512720065132210651354906513856065142960651466306515213065163150651730006518333065198740652140406523247065049140650491206504896065048690650488006504951065051300650526606505342065053210650528106505383065057530650599206506225065065540650675306507052065077510650842406509104065100500651102706512237064981760649817906498199064982500649829106498319064983300649833406498347064983910649844406498497064985640649863206498716064988570649901206499227064995380649970806500005065006010650091806501362065182800651825806518286065184060651851606518600065186400651862406518579065185110651849606518506065185070651846306518429065184190651836206518282065182560651836406518423065182700651808906518043065492770654922906549191065491690654917306549191065492170654920706549143065490230654900506549028065490150654892406548867065488690654877906548726065487240654855406548392065482660654801306547757065741080657410906574102065740750657404306573999065739340657389506573880065738740657382806573765065736950657365106573602065735250657347506573431065733500657323006573049065727440657250406572218065879910658796406587948065879420658793406587908065878380658776806587698065876210658758206587544065874890658745906587412065873070658723406587164065870480658692406586751065864360658614006585823065901970659017406590149065901170659008806590052065899870658992706589862065897860658974906589697065896040658957206589532065894350658937506589300065891540658903606588881065885830658829306587957065857100658570806585701065856760658564306585595065855090658543406585362065852830658523806585178065850830658504906585002065848900658482206584762065846600658454006584368065840620658379006583480065725580657254206572526065725020657247106572419065723180657223506572169065721140657207706572023065719340657188906571838065717550657171606571666065715510657143606571275065710040657080306570538065620600656205606562033065619750656192806561896065618710656183206561749065616220656160606561591065614930656141606561384065613870656133506561263065611750656107706560919065606580656049206560257065514710655142606551391065513690655136606551368065513600655132106551236065511030655107606551088065510680655098806550938065509410655087506550785065506840655060306550538065504270655022206549978065423940654239806542371065422860654221206542157065421230654211106542098065420870654209506542047065419140654191106541953065419400654182806541758065417800654172106541609065414690654140006541278065385230653852206538492065384070653833606538285065382580653825206538243065382260653821906538212065381990653820106538222065382120653809706538006065380240653804006537990065378300653772206537610065370090653700906537013065370230653703006537031065370210653700906536998065369870653697606536983065369680653685306536762065367770653680006536805065368070653682806536772065366150653663306536635065397290653972806539720065397010653968506539674065396680653966506539660065396520653965106539643065396560653975006539824065398110653978206539761065397640653978706539750065395960653953106539575065418020654179906541778065417260654168606541659065416530654165706541654065416460654165206541631065416710654193106542140065421020654202006541968065419730654199906541979065418270654168406541745065439990654399406543960065438730654380506543763065437560654376406543764065437550654376806543734065438010654423906544589065445250654438606544302065443090654433806544336065441860654396006544039065464970654648906546439065463130654621506546153065461440654615906546159065461490654616906546121065462190654685706547368065472760654707206546951065469600654699206547011065468640654654306546644,
    67098570671144906713074067157850671866906722448067286230673402206739967067487060675603306764473067789930679270906808928068348740685672006880089069154030694535506978506070295320707091407104779066973280669868106700086067024340670490406708119067133740671799206723102067306280673693006744185067567090676856606782577068049510682386506844192068748990690110806930300069751920701181907043147066815440668259506683724066856130668756306690067066941630669779706701856067078530671286206718624067286350673814806749380067672530678247406798966068238690684536406869567069067300693736806965500066711480667200006672946066745330667614006678176066815090668449506687861066928520669700906701788067101440671811206727513067424230675521006769177067902570680864606829564068616360688832806914355066601270666076906661521066627890666403206665572066680950667039406673027066769500668020406683941066905410669687406704333067161010672630906737599067546270676972306787158068138340683634406860140066476200664803606648569066494740665032606651346066530110665456006656368066590990666137706663999066686540667316706678503066868570669422506702539067151300672656406740048067607080677851306798175066388220663913206639521066401910664084106641632066429010664403506645331066473390664911406651197066546950665810306662245066687690667450006681001066910860670025906711053067279200674259906758887066264370662666606626950066274020662779806628251066290010662972806630618066320380663329006634735066371200663939706642163066466540665068506655284066624430666903806676873066890990669985206712003066109850661108006611186066113920661163606611969066125090661296306613459066142540661502106615928066172720661862206620381066231330662554306628350066329510663716906642103066499900665699306664951066008460660097706601085066012250660135506601522066018150660210206602458066030580660363206604288066052170660614406607374066093430661102906612984066163910661952406623107066288520663402806639977065901020659017106590236065903320659042506590545065907520659094906591187065915740659193206592352065930300659370106594542065958800659708006598480066007520660300906605722066095750661312006617513065780170657806006578119065782120657828506578361065784780657859106578735065789770657920506579475065799100658033306580859065817140658249006583400065848800658628706587985065906810659309506595891065696810656969106569718065697760656983506569906065700230657012906570248065704110657052706570663065709830657130406571668065722710657282706573480065745460657556006576784065787420658051206582574065586620655864506558631065586280655864406558678065587480655881606558891065589950655906906559150065593200655951606559762065601310656044806560835065615400656215706562843065640390656516406566450065547420655475606554780065548090655481606554807065547920655479406554810065548220655480006554769065548060655483206554826065548810655497306555074065551760655529206555496065558850655623606556643065706710657065906570636065705940657055806570520065704590657040006570330065702270657014906570074065699720656985506569700065694970656928506569026065687870656857406568277065679530656774006567536065957220659573906595770065957830659573206595620065954310659530106595195065950640659494306594788065945370659432006594065065936130659320606592777065922050659172006591169065904050658979306589157066150930661505606614979066148410661472906614624066145040661443406614371066142460661407806613874066136700661339606612974066125030661203606611390066105950661002206609366066082850660752006606848066205000662044106620418066204040662037606620317066201950662007406619933066197310661957506619398066190430661868506618312066179190661752506616948066160790661536006614612066136780661282106611822066195270661953406619545066195480661952606619475066193520661921206619036066187770661858406618408066181830661793406617568066169460661637806615780066150880661442206613573066125790661182106610930066085210660844206608391066083410660829506608232066081390660807006607999066078570660768006607463066072210660693806606523066060160660564406605197066044160660376706603103066020530660112506600146065983250659825906598119065979240659784706597852065978860659785506597741065975130659732306597138065968900659665606596360065958970659544506594908065942010659361506592951065920380659129506590495065865120658648706586455065864070658636906586329065862640658619806586111065859610658581906585656065854210658520206584939065845600658419106583737065831210658260306582016065812130658055506579848065747930657479206574777065747410657470206574656065745900657454306574493065743950657427506574121065739290657380106573651065733180657301406572706065722380657180806571325065706800657016806569613065687000656869006568667065686260656859506568566065685240656848206568428065683440656827606568202065680720656793306567760065675180656730706567054065666700656634806566009065655520656513406564662065640300656401106563976065639260656390306563898065639010656389406563872065638210656376706563707065636340656352006563366065632810656316406562944065627500656259806562369065620420656176306561456065643320656433506564341065643500656435606564360065643570656434706564328065642830656422906564181065641920656418306564125065640650656400606563903065637430656367706563646065634680656332806563245065671880656718506567180065671750656717806567185065671870656716906567135065670940656708806567106065671220656707906567009065670190656702106566965065669130656687106566798065666670656658006566528065704190657040806570386065703590657035606570368065703750657034906570298065702630657031206570406065704210657033106570240065703310657040206570392065704670657044906570310065702250657018906570159065740920657407106574030065739790657396906573985065739990657396406573895065738650657397706574157065741710657402706573914065740970657424506574287065745060657451506574303065742690657429206574287,
    67769800677918906781414067836320678505106786994067914240679614906801546068090130681521706822644068353630684690906860065068822710690236106924402069576820698605107017093070636940710443407149829067654600676730906769182067711070677238806774129067779960678208606786770067933160679878006805281068162940682632106837851068573010687491606894315069236100694860406976047070174700705375707094205067509460675234206753771067553270675643506757921067610800676436906768154067735410677807306783407067922710680038206809864068258440684034006856410068806840690142706924335069592350698991207024127067413860674248306743620067449320674592706747244067499370675269906755893067605160676443406768998067764470678329706791430068051230681756606831442068524100687035206890274069208770694785806977968067312520673203306732860067339140673478806735927067381250674032806742895067467080674997506753725067596720676518606771889067831580679342406804975068224380683741106854167068802150690327906929038067197320672015306720627067213890672212506723062067246980672626506728119067310120673353906736362067406040674459706749675067581890676597906774888067883660679996406813121068339910685260106873414067115300671172806711980067125370671315806713936067151880671633706717716067199670672196406724138067272330673019806734143067407390674681206753879067645850677383406784476068016970681717306834522066996840669989306700117067004410670075406701193067020570670292506703935067054300670668706708089067102410671230306714936067193470672348306728360067358250674236106749981067624580677386706786895066848880668500106685137066853700668559806685875066863260668674906687266066881220668889906689772066910630669228606693887066966840669924106702127067066960671086106715773067237950673118706739760066751960667525906675330066754650667560906675798066761250667643806676811066774050667793506678537066794610668034406681482066834220668522906687341066906760669365106697141067030400670857306714957066648940666494606665000066650890666518006665301066655190666573106665982066663700666671706667124066677810666841006669197066705300667176506673200066754810667760006680161066843550668820706692695066530970665313706653190066532780665335506653441066535690665368106653814066540350665425106654525066550020665544206655951066567790665756906658522066600190666138606663049066658490666844206671451066448400664483406644840066448770664493106645003066451240664522706645333066454700664559906645791066461900664651506646807066473770664800006648747066498590665084306652050066541310665606006658278066332160663328506633349066333860663338206633377066334050663346206633545066336880663381206633941066341090663428106634519066348440663516106635622066363860663706106637834066390640664027706641805066189590661895606618949066189290661891806618928066189970661908706619191066193200661939206619426066194010661944006619603066198370662003406620299066206740662097506621356066221490662288106623632066098170660982306609824066098100660979806609805066098680660994806610032066101160661014806610151066101220661016506610315066105230661069006610885066110480661123306611573066119400661231906612963066007560660075206600751066007610660077006600765066007220660068706600692066008170660096906601104066011610660114806601134066010590660113206601390066014800660148906601696066020060660228706602696065913130659131106591309065913090659131006591310065913060659130206591302065913130659133306591364065914180659144006591430065914430659149306591565065916590659171806591779065919250659209306592291065852870658530606585325065853360658533606585332065853300658533206585334065853340658533306585331065853310658535006585388065854110658542406585462065855280658557006585605065857020658579806585886065782450657824706578249065782510657825106578250065782500657824906578249065782500657825106578251065782490657824906578253065782560657825006578247065782980657833506578332065783670657842106578464065718810657188206571882065718830657188306571882065718820657188206571882065718820657188306571883065718820657188206571883065718830657188306571884065718840657187706571872065719160657195006571945065694630656946306569463065694620656946206569462065694630656946306569463065694630656946206569462065694630656946306569462065694620656946206569462065694630656946406569465065694570656944606569443065685090656850906568509065685090656850906568509065685090656850906568509065685090656850906568509065685090656850906568509065685090656850906568509065685090656850906568509065685080656851606568525065692360656923606569236065692360656923606569236065692360656923606569236065692360656923606569236065692360656923606569236065692360656923606569236065692360656923606569237065692330656923906569247065707670657076706570767065707670657076706570767065707670657076706570767065707670657076706570767065707670657076706570767065707670657076706570767065707670657076706570767065707660657076706570768065741770657417706574177065741770657417706574177065741770657417706574177065741770657417706574177065741770657417706574177065741770657417706574177065741770657417706574177065741770657417706574178065798420657984206579842065798420657984206579842065798420657984206579842065798420657984206579842065798420657984206579842065798420657984206579842065798420657984206579842065798420657984206579842065843640658436406584364065843640658436406584364065843640658436406584364065843640658436406584364065843640658436406584364065843640658436406584364065843640658436406584364065843640658436406584365065896030658960306589603065896030658960306589603065896030658960306589603065896030658960306589603065896030658960306589603065896030658960306589603065896030658960306589603065896030658960306589603065956170659561706595617065956170659561706595617065956170659561706595617065956170659561706595617065956170659561706595617065956170659561706595617065956170659561706595617065956170659561706595617]

/-- `json_database/ccd96_c.json`. -/
def ccd96_c : PackedFile where
  temperature := [9930123, 9947732, 9969917, 9984530, 10000020, 10017629, 10030123, 10047732, 10069917, 10084530, 10100020, 10117629, 10130123, 10147732, 10169917, 10184530, 10200020, 10217629, 10230123, 10247732, 10269917, 10284530, 10300020, 10317629, 10330123, 10347732, 10369917, 10384530, 10400020, 10417629]
  density := [11369897, 11400000, 11430103, 11469897, 11500000, 11530103, 11569897, 11600000, 11630103, 11669897, 11700000, 11730103, 11769897, 11800000, 11830103, 11869897, 11900000, 11930103, 11969897, 12000000, 12030103, 12069897, 12100000, 12130103]
  levels := [
    78287130782871307828713078287130782871307828713078287130782871307828713078287130782871307828713078287130782871307828713078287130782871307828713078287130782871307828713078287130782871307828713078419660784196607841966078419660784196607841966078419660784196607841966078419660784196607841966078419660784196607841966078419660784196607841966078419660784196607841966078419660784196607841966078586450785864507858645078586450785864507858644078586440785864407858643078586430785864307858643078586430785864307858643078586430785864307858643078586430785864307858643078586430785864307858643078695410786954007869539078695350786953007869524078695140786950807869504078695010786950007869499078694990786949907869499078694990786949907869499078694990786949907869499078694990786949907869499078817620788175607881744078817130788167107881612078815210788146107881419078813890788137707881370078813660788136407881363078813630788136307881363078813630788136307881364078813630788136107881359079038410790381107903754079035990790338707903083079026020790228007902048079018770790181007901774079017520790174407901740079017370790173607901735079017350790173407901728079017120790168707901651079282760792821307928091079277650792732107926681079256740792500407924516079241480792401007923936079238890792387707923871079238670792386507923858079238430792383407923817079237620792367807923549079716820797155907971322079706910796984207968635079667680796554407964666079640100796376607963642079635590796352507963516079635270796353007963514079634740796344007963389079632320796299007962607080371840803699608036638080356930803443408032668080300070802831408027146080262930802595708025791080257010802566308025639080256150802559608025575080255480802551408025423080251650802481208024234080853580808515308084765080837360808237408080494080777060807593508074689080737810807345408073279080731620807312808073103080730860807308908073079080730450807301008072945080727730807252608072106081388900813869508138325081373480813606508134294081316890813007708128963081281430812783808127694081276160812757708127546081275310812753508127521081274930812749108127499081275150812749808127384081986550819849108198180081973670819631208194895081928670819162008190779081901800818994508189829081897660818974408189736081897280818971008189699081896970818971408189778081899800819018408190306082397300823959108239328082386430823776508236610082349880823400008233349082329070823274008232650082325910823256808232568082325610823253308232525082325310823254608232640082329120823316908233359082959390829583308295636082951380829452708293761082927600829220108291844082916020829151508291472082914420829142808291422082914160829140508291392082913810829140008291494082917330829194608292122083629990836292808362797083624780836210108361653083611150836083608360661083605420836050308360481083604660836046208360457083604490836044008360425083604010836040508360463083606290836078708360929084038770840382308403723084034820840320708402888084025110840231808402200084021210840209508402080084020700840206508402063084020580840204908402031084020020840199708402038084021700840230108402426084452700844522808445153084449740844477108444539084442700844413508444055084440030844398408443972084439650844396208443961084439550844394508443930084439020844388708443913084440190844413308444245084921760849214508492089084919560849180808491642084914510849135608491301084912670849125408491246084912400849123808491236084912310849122308491209084911820849116608491181084912630849135808491455085254710852544608525399085252870852516008525017085248520852476908524719085246860852467408524668085246640852466208524659085246550852464908524633085246020852458308524593085246640852475208524846085723220857230108572264085721730857207008571951085718110857174108571697085716650857165408571650085716470857164508571643085716380857163008571617085715880857156408571564085716200857170108571790086313350863131908631290086312190863113808631043086309310863087208630837086308140863080708630803086308000863079808630795086307910863078708630776086307480863072208630713086307510863081508630892086702050867019108670166086701040867003208669948086698490866979908669766086697420866973508669732086697280866972608669726086697240866971608669706086696820866965608669643086696710866972608669795087114080871139608711374087113190871125608711181087110900871104308711014087109940871098708710983087109800871098008710979087109750871097008710960087109370871091408710898087109140871096108711022087582470875823708758218087581700875811508758049087579660875792008757895087578810875787408757868087578670875787008757867087578590875785908757851087578270875780708757789087577930875783108757884087914800879147108791453087914100879136008791300087912220879117808791154087911440879113708791131087911300879113508791130087911210879112408791116087910920879107508791055087910520879108408791131088383190883831108838296088382590883821508838161088380900883804808838028088380210883801508838008088380080883801508838009088379980883800408837997088379730883795808837937088379250883795008837991088973290889732208897309088972780889724108897196088971320889709308897076088970730889706808897059088970610889707008897062088970490889705808897052088970290889701708896995088969740889699108897024089361970893619108936180089361520893611908936078089360200893598208935967089359670893596108935952089359540893596408935956089359420893595308935947089359240893591408935892089358660893587908935908089773990897739408977384089773600897733008977294089772400897720408977191089771920897718708977178089771800897719108977182089771680897718008977175089771520897714408977121089770920897710108977125090242380902423309024225090242030902417809024145090240970902406309024051090240540902404909024041090240430902405409024045090240310902404309024039090240170902401009023988090239550902396009023979,
    81826420818264208182642081826420818264208182642081826420818264208182642081826420818264208182642081826420818264208182642081826420818264208182642081826420818264208182642081826420818264208182642081887710818877108188771081887710818877108188771081887710818877108188771081887710818877108188771081887710818877108188771081887710818877108188771081887710818877108188771081887710818877108188771081940140819401408194014081940140819401408194014081940140819401408194014081940130819401308194013081940130819401308194013081940130819401308194013081940130819401308194014081940130819401308194013081959780819597808195977081959740819597008195964081959560819595108195947081959440819594308195943081959420819594208195942081959420819594208195942081959420819594208195942081959420819594108195942081973930819738508197371081973310819727708197197081970670819697708196912081968630819684308196832081968280819682608196824081968240819682408196824081968240819682408196825081968220819681708196824081991010819904808198946081986640819826508197663081966420819589608195327081948700819470308194625081945660819453708194521081945190819452108194521081945260819452508194498081945570819465008194504082038380820370308203446082027360820173708200231081976690819580108194389081932760819285508192641081924950819243108192397081923960819239508192387081923930819242108192484081925250819245008192291082235780822326108222657082210140821875708215470082101490820644308203734082016890820088608200441082002230820013208200050082000420820004208200050082000750820002408200009081999410819967308199282082793090827876108277726082749640827129908266196082584640825341708249871082471900824615808245613082452490824505308244934082449370824496308244968082449800824494108244789082443380824366708242326083252080832457508323383083202220831606908310361083018470829633008292458082895910828855608288042082876970828754208287460082874660828742908287384082874160828736208287131082863930828519108282909083699630836930708368070083647850836046408354513083456080833984608335787083326650833152708331006083306810833053508330465083304580833033808330206083301970833014508329890083289360832736208324270084128950841227908411115084080120840389508398163083894390838372808379693083765780837538808374793083744510837430608374217083742070837418008374203083743900837432308373997083731490837143308367742084389660843840708437349084345140843072708425417084172730841185808407972084050180840396208403457084030800840296408402953084029610840294308402950084031090840304608402734084019780840025308396350084708740847041608469546084671990846403608459562084526530844802108444687084421850844130208440880084405880844052008440545084406090844064808440662084407530844079708440665084399120843806708433865085055080850517908504555085028730850060308497380084923930848907108486714084849470848430908484007084838550848384208483872084839990848412108484108084840600848412608484063084833080848135108476734085254010852515108524677085234010852168408519254085155390851310808511409085101350850968708509486085093760850936008509389085095160850962008509615085096450850973408509552085085130850633908501428085445300854435208544014085431110854190008540204085376630853601308534859085340260853372308533571085335090853351308533549085335540853351508533578085336700853355808533272085321030852969508524730085634380856332208563105085625230856175008560673085590790855805708557351085568550855667808556586085565390855654608556586085565810855653308556547085565550855642708556072085547340855225208547270085749490857486508574707085742870857373308572964085718350857112108570636085702910857017008570109085700770857007608570091085701120857012008570098085700130856987008569512085681910856574308560834085892340858918108589081085888180858847308588000085873170858689408586610085864040858633008586295085862770858627508586281085862880858628208586272085862080858603608585640085843380858200108577342086064130860638408606329086061850860599708605743086053810860516008605013086049080860487208604855086048470860484608604839086048640860488408604739086044060860421408604019086030440860085908596465086175120861749208617455086173570861723108617063086168290861668908616596086165290861650408616491086164850861648508616486086164850861648608616504086165140861637508615883086146750861284208608812086294020862938908629364086293000862921908629111086289640862887808628821086287800862876508628757086287520862875108628754086287490862874508628781086287350862850208628108086271150862537908621692086429830864297508642960086429210864287108642805086427170864266508642632086426080864259908642595086425930864259208642590086425950864260108642575086422590864185608641767086412530863950908636171086526180865261308652602086525740865253808652492086524300865239408652371086523540865234808652345086523440865234408652339086523510865236508652295086517880865126508651393086512210864947008646380086661970866619308666187086661690866614708666119086660820866606008666046086660360866603308666031086660310866603208666023086660450866606808665936086651600866447008664906086652120866345108660711086833030868330108683297086832880868327608683261086832410868322908683222086832170868321608683214086832150868321708683203086832380868327308683064086819480868104708681870086827810868100908678707086945700869456908694566086945600869455208694542086945290869452108694516086945130869451308694511086945130869451508694498086945410869458408694324086929850869194508693023086943330869255308690539087065130870651208706511087065070870650108706495087064860870648208706478087064770870647708706475087064780870648008706459087065120870656308706249087046740870348608704835087065670870477908703071087200900872009008720089087200860872008308720079087200740872007108720069087200680872006808720066087200700872007308720048087201100872017108719796087179520871659608718253087204660871866908717308,
    85365680853656808536568085365680853656808536568085365680853656808536568085365680853656808536568085365670853656908536569085365480853650608536476085365220853652608536607085369500853655908535950085390300853903008539030085390300853903008539030085390300853903008539030085390300853903008539030085390300853903108539031085390190853900908539013085390590853907608539123085392850853910008538813085422940854229408542294085422940854229408542294085422940854229408542294085422940854229408542294085422940854229308542294085423030854231908542344085423850854240808542396085423220854234008542405085447250854472508544725085447250854472508544725085447250854472508544725085447250854472508544725085447260854472208544723085447410854469008544621085446510854466708544639085446180854464208544676085473270854732708547327085473270854732708547327085473270854732708547327085473270854732708547327085473270854732608547326085473300854730508547277085473060854730208547277085472940854727108547219085504260855042608550426085504260855042608550426085504260855042608550426085504260855042608550426085504260855042608550426085504260855042408550428085504550855044808550416085503940855038408550383085527210855272108552721085527210855272108552721085527210855272108552721085527210855272108552721085527210855272108552721085527220855271808552715085527250855275208552764085527060855267808552678085561130855611308556113085561130855611308556113085561130855611308556113085561130855611308556113085561130855611308556113085561120855611408556116085561140855613808556175085561820855615708556112085606140856061408560614085606140856061408560614085606140856061408560614085606140856061408560614085606140856061408560614085606150856061508560615085606150856061308560616085606350856062708560527085637520856375208563752085637520856375208563752085637520856375208563752085637520856375208563752085637520856375208563752085637500856374908563749085637490856375208563750085637100856362108563394085672310856723108567231085672310856723108567231085672310856723108567231085672310856723108567231085672320856723008567231085672420856724808567246085672420856725708567251085671180856697608566660085714070857140708571407085714070857140708571407085714070857140708571407085714070857140708571407085714050857141308571410085713460857132008571328085713300857133008571332085712900857110308570604085745940857459408574594085745940857459408574594085745940857459408574594085745940857459508574594085745930857459808574596085745600857454408574549085745520857453408574507085744500857422408573630085793980857939808579398085793980857939808579398085793980857939808579398085793980857939808579398085793990857939608579397085794130857941608579416085794320857940508579340085792240857897708578335085861510858615108586151085861510858615108586151085861510858615108586151085861510858615108586151085861510858615208586152085861490858615508586153085861070858610208586101085859560858566608584956085911840859118408591184085911840859118408591184085911840859118408591184085911840859118408591184085911840859118408591184085911830859118408591184085911710859114708591099085909570859068408589974085972420859724208597242085972420859724208597242085972420859724208597242085972420859724208597242085972420859724108597242085972490859724808597248085972600859723008597161085970240859673508595998086050160860501608605016086050160860501608605016086050160860501608605016086050160860501608605016086050150860501908605017086049880860497508604980086049860860496608604912086047600860447308603762086109800861098008610980086109800861098008610980086109800861098008610980086109800861098008610980086109800861098208610981086109660861095408610943086109260861091608610885086107270861043208609737086202540862025408620254086202540862025408620254086202540862025408620254086202540862025408620254086202550862025308620253086202640862025008620227086202190862013608620012086199240861972708619087086336160863361608633616086336160863361608633616086336160863361608633616086336160863361608633616086336160863361508633615086336160863361108633610086336270863360808633545086333920863311108632454086439760864397608643976086439760864397608643976086439760864397608643976086439760864397608643976086439760864397708643977086439730864398808643984086438840864387208643878086436670864341708642875086565160865651608656516086565160865651608656516086565160865651608656516086565160865651608656516086565160865651708656517086565120865652908656522086564020865639008656400086561640865593908655475086728770867287708672877086728770867287708672877086728770867287708672877086728770867287708672877086728770867287808672878086728750867288408672882086728160867277908672738086725630867232308671795086861510868615108686151086861510868615108686151086861510868615108686151086861510868615108686151086861510868615008686151086861530868614308686126086861030868605308685970086858220868559608685066087057720870577208705772087057720870577208705772087057720870577208705772087057720870577208705772087057730870576908705771087057820870573408705681087057360870570008705570087054150870520508704714087305400873054008730540087305400873054008730540087305400873054008730540087305400873054008730540087305420873053508730538087305610873046608730368087305200873049908730309087301460872995508729514087468630874686308746863087468630874686308746863087468630874686308746863087468630874686308746863087468650874685708746860087468900874676508746639087468530874684008746610087464430874626408745856087641730876417308764173087641730876417308764173087641730876417308764173087641730876417208764173087641750876416508764168087642070876405008763896087641730876416708763894087637230876355908763184087838590878385908783859087838590878385908783859087838590878385908783859087838600878385908783859087838620878385008783854087839010878371008783523087838720878387208783549087833760878322508782890,
    84937280849372808493728084937280849372808493728084937280849372808493728084937280849372808493728084937280849372808493728084937280849372808493728084937280849372808493728084937280849372808493728085004690850046908500469085004690850046908500469085004690850046908500469085004690850046908500469085004690850046908500469085004690850046908500469085004690850046908500469085004690850046908500469085089620850896208508962085089620850896208508962085089620850896208508962085089620850896208508962085089620850896208508962085089620850896208508962085089620850896208508962085089620850896208508963085145570851455708514557085145570851455708514557085145570851455708514557085145570851455708514557085145570851455708514557085145570851455708514557085145570851455708514557085145570851455708514557085204460852044608520446085204460852044608520446085204460852044608520446085204460852044608520446085204460852044608520446085204460852044608520446085204460852044608520446085204460852044608520446085267920852679208526792085267920852679208526792085267920852679208526792085267920852679208526792085267920852679208526792085267920852679208526792085267920852679208526792085267920852679208526791085309190853091908530919085309190853091908530919085309190853091908530919085309190853091908530919085309190853091908530919085309190853091908530919085309190853091908530919085309190853091908530918085366120853661208536612085366120853661208536612085366120853661208536612085366120853661208536612085366120853661208536612085366120853661208536612085366120853661208536612085366120853661208536610085447800854478008544780085447800854478008544780085447800854478008544780085447800854478008544780085447800854478008544780085447800854478008544780085447800854478008544779085447800854479008544801085518190855181908551819085518190855181908551819085518190855181908551819085518190855181908551819085518190855181908551819085518190855181908551819085518190855181808551819085518180855180908551821085616320856163208561632085616320856163208561632085616320856163208561632085616320856163208561632085616320856163208561632085616320856163208561632085616320856162908561635085616310856156908561515085762940857629408576294085762940857629408576294085762940857629408576294085762940857629408576294085762940857629408576294085762940857629408576293085762940857629608576291085762940857632508576284085887910858879108588791085887910858879108588791085887910858879108588791085887910858879108588791085887910858879108588791085887910858879108588791085887910858879008588791085887900858877008588672086069760860697608606976086069750860697508606975086069750860697508606975086069750860697508606975086069750860697508606976086069750860697308606974086069730860696208606987086069700860672408606516086270220862702208627022086270210862702108627020086270190862701808627017086270170862701708627016086270160862701708627016086270170862703108627041086270350862703008627042086270340862691008626671086392930863929208639292086392910863928908639286086392800863927508639272086392690863926808639267086392670863926708639267086392670863926208639261086392610863925308639269086392560863907308638822086520420865204208652040086520360865203008652021086520040865199008651979086519700865196608651964086519630865195908651967086519610865188208651818086518200865181808651822086518120865170208651436086661430866614108666139086661300866611808666099086660620866603208666006086659850866597708665972086659690866596908665966086659680866598808665973086658880866586508665881086658680866571808665415086757780867577608675773086757620867574608675720086756700867562808675593086755620867555008675544086755390867553808675537086755370867553708675541086755300867548008675460086754520867528608674938086881470868814508688141086881280868810908688079086880190868796708687922086878820868786608687857086878510868784908687849086878480868784308687841086878370868781508687776086876980868758108687274087008740870087208700868087008570870083908700810087007520870069908700653087006100870059108700582087005760870057208700574087005720870054908700532087005360870053608700549087005330870037608700046087078580870785608707853087078430870782808707803087077520870770508707661087076210870760308707593087075870870758508707584087075840870758408707586087075850870758108707590087075700870741308707099087146290871462708714625087146170871460608714586087145440871450508714469087144330871441708714408087144030871440108714400087144000871440208714396087144000871443408714358087140890871395008713632087220390872203908722037087220320872202408722010087219800872195208721924087218950872188208721875087218710872186908721869087218680872186808721870087218690872185708721884087218700872159208721201087280460872804508728044087280410872803508728025087280020872798008727958087279350872792408727919087279150872791408727913087279130872791408727911087279130872792808727895087277030872745508727151087375070873750608737506087375030873750008737494087374800873746508737450087374340873742608737421087374190873741808737417087374170873741708737415087374170873742908737402087372580873707508736767087510140875101408751013087510120875101108751008087510010875099308750985087509750875097008750968087509660875096508750965087509650875096308750966087509640875094408750989087510580875084308750418087600150876001508760014087600140876001308760011087600070876000208759997087599910875998808759986087599840875998408759984087599840875998008759987087599820875994108760035087602470876000208759494087695560876955608769556087695550876955508769554087695520876954908769546087695420876954008769538087695380876953708769537087695370876953208769542087695350876947108769618087699800876970408769110087804020878040208780402087804020878040208780401087804000878039908780397087803950878039308780392087803920878039108780392087803910878038508780399087803890878029808780505087810380878072808780035,
    85726500857265108572652085726520857264908572643085726440857265708572676085726750857262808572622085729170857297108572699085723520857223508572247085724380857277808573034085724820857230208572621085775480857754808577550085775490857754708577543085775430857755308577568085775680857753108577526085777600857780408577588085773210857723508577243085773860857764808577852085774240857728208577526085837190858372008583720085837200858371908583716085837160858372308583733085837330858370808583704085838620858389208583747085835820858353308583538085836190858378508583922085836520858355708583706085877850858778508587786085877860858778508587783085877830858778708587795085877940858777708587775085878830858790208587804085877050858768208587684085877250858782808587921085877550858769208587777085920950859209608592096085920960859209508592094085920940859209708592100085921000859209108592090085921450859215308592105085920770859208008592080085920780859211308592160085921060859207608592093085970170859701708597017085970170859701708597016085970160859701708597017085970170859701608597016085970180859701508597014085970460859706908597067085970340859701108597012085970540859705608597019086005750860057508600575086005750860057508600575086005750860057508600574086005740860057508600575086005710860056808600570086005770860058208600582086005760860057108600570086005760860057908600575086055890860558908605589086055890860558908605588086055880860558908605591086055910860558708605586086056130860562908605626086056230860562208605620086056200860561908605619086056280860562508605606086122490861224908612249086122490861224908612249086122490861224808612248086122480861224908612249086122450861223808612230086122330861222508612196086121580861215008612145086120900861215908612310086167140861671408616714086167140861671408616714086167140861671408616715086167150861671408616714086167190861671108616690086166800861668508616675086165830861651208616497086165590861662408616658086211740862117408621174086211740862117408621174086211740862117308621173086211730862117408621174086211710862117808621177086211220862119508621361086213200862123408621242086212640862126608621252086263240862632408626324086263240862632408626324086263240862632408626324086263240862632408626324086263240862632508626326086263080862630008626289086261990862615108626158086261500862612708626070086295030862950308629503086295030862950308629503086295030862950308629503086295030862950308629503086295030862950308629503086294940862946708629442086294970862952708629509086295070862941708629206086337230863372308633723086337230863372308633723086337230863372308633723086337230863372308633723086337240863372208633722086337300863370608633681086337910863385108633825086338220863369508633397086389060863890608638906086389060863890608638906086389060863890608638906086389060863890608638906086389060863890508638901086388910863891308638941086388590863880308638813086388010863870608638490086422120864221208642212086422120864221208642212086422120864221208642212086422120864221208642212086422130864221208642202086421700864223008642352086423350864228608642292086422620864210808641786086462510864625108646251086462510864625108646251086462510864625108646251086462510864625108646251086462490864625308646253086462170864626608646379086463630864633408646343086461930864602008645792086517870865178708651787086517870865178708651787086517870865178708651787086517870865178708651787086517870865178708651787086517880865178408651768086517250865170608651709086516790865153108651187086562160865621608656216086562160865621608656216086562160865621608656216086562160865621608656216086562160865621608656216086562100865620508656192086561450865612808656132086560460865586008655519086631010866310108663101086631010866310108663101086631010866310108663101086631010866310108663101086631010866310008663100086631040866309108663076086631270866312908663059086629570866276708662379086736700867367008673670086736700867367008673670086736700867367008673670086736700867367008673670086736700867367008673670086736680867367108673675086736500867362108673578086734190867322808672916086820140868201408682014086820140868201408682014086820140868201408682014086820140868201408682014086820140868201408682014086820130868201608682016086819780868193708681890086817760868160708681289086919320869193208691932086919320869193208691932086919320869193208691932086919320869193208691932086919320869193208691932086919330869193108691930086919390869191208691843086917260869155108691219087041330870413308704133087041330870413308704133087041330870413308704133087041330870413308704133087041330870413308704133087041310870413408704135087041090870408808704064087039550870378508703481087132880871328808713288087132880871328808713288087132880871328808713287087132870871328808713288087132870871328808713290087132890871329008713291087132700871324708713228087131750871296008712535087263640872636408726364087263640872636408726364087263640872636408726365087263650872636408726364087263670872636008726345087263410872634708726346087263290872632008726308087262250872612208725916087419250874192508741925087419250874192508741925087419250874192508741925087419250874192508741925087419240874192708741931087419200874191108741909087419030874188408741859087418290874167608741363087511150875111508751115087511150875111508751115087511150875111508751115087511150875111508751115087511160875111408751112087511180875111708751104087510930875108408751068087510220875091708750694087607650876076508760765087607650876076508760765087607650876076508760765087607650876076408760764087607680876076008760748087607760876078408760758087607390876074508760742087606700876062908760525087717350877173508771735087717350877173508771735087717350877173508771736087717360877173408771734087717410877172608771704087717550877177408771733087717060877172708771739087716390877166908771702,
    81992620819926208199262081992620819926208199262081992620819926208199262081992620819926208199262081992620819926208199262081992620819926208199262081992630819926208199262081992640819926008199247082130000821300008213000082130000821300008213000082130000821300008213000082130000821300008213000082130000821300008213000082130000821300008213000082130000821300008213000082130020821299908212988082303080823030808230308082303080823030808230308082303080823030808230308082303080823030808230308082303080823030808230308082303080823030808230308082303080823030808230308082303090823030708230299082417080824170808241708082417080824170808241708082417080824170808241708082417080824170808241708082417080824170808241708082417080824170808241708082417080824170808241708082417090824170708241702082537930825379308253793082537930825379308253793082537930825379308253793082537930825379308253793082537930825379308253793082537930825379308253793082537930825379308253793082537930825379208253790082675310826753108267531082675310826753108267531082675310826753108267531082675310826753108267531082675310826753108267531082675310826753108267531082675310826753108267531082675310826753108267530082776630827766308277663082776630827766308277663082776630827766308277663082776630827766308277663082776630827766308277663082776630827766308277663082776630827766308277663082776630827766308277664082976820829768208297682082976820829768208297682082976820829768208297682082976820829768208297682082976820829768208297682082976820829768208297682082976820829768208297682082976820829768108297680083400950834009508340095083400950834009508340095083400950834009508340095083400950834009508340095083400950834009508340095083400950834009508340095083400950834009508340095083400970834009308340077083731500837315008373150083731500837315008373150083731500837315008373150083731500837315008373150083731500837315008373150083731500837315008373150083731510837314908373147083731600837313908373075084078080840780808407808084078080840780808407808084078080840780808407808084078080840780808407808084078080840780808407808084078080840780808407808084078080840780808407808084078080840780808407812084462010844620108446201084462010844620108446201084462010844620108446201084462010844620108446201084462010844620108446201084462010844620108446201084462010844620108446202084461980844620508446215084721060847210608472106084721060847210608472106084721060847210608472106084721060847210608472106084721060847210608472106084721060847210608472106084721060847210608472106084721060847210608472105085069050850690508506905085069050850690508506905085069050850690508506905085069050850690508506905085069050850690508506905085069050850690508506905085069040850690508506908085068950850691608506945085478660854786608547866085478660854786608547866085478660854786608547866085478660854786608547866085478660854786608547866085478660854786608547866085478660854786708547867085478640854786908547876085728320857283208572832085728320857283208572832085728320857283208572832085728320857283208572832085728320857283208572832085728320857283208572832085728320857283208572832085728320857283308572832085974810859748108597481085974810859748108597481085974810859748108597481085974810859748108597481085974810859748108597481085974810859748108597481085974810859748108597482085974770859748608597502086228300862283008622830086228300862283008622830086228300862283008622830086228300862283008622830086228300862283008622830086228300862283008622830086228290862283008622832086228230862283808622864086391780863917808639178086391780863917808639178086391780863917808639178086391780863917808639179086391790863917908639179086391790863917908639178086391800863917708639174086391930863916108639065086601640866016408660164086601640866016408660164086601640866016408660164086601630866016308660163086601620866016308660163086601630866016308660163086601620866016308660163086601600866016508660169086838060868380608683806086838050868380508683805086838060868380708683807086838030868379808683794086837920868379308683793086837930868379308683792086837930868379208683791086837980868378608683748086973310869733108697331086973300869732908697330086973330869733608697334086973190869730208697287086972820869728308697283086972830869728308697283086972830869728308697284086972810869728508697296087100190871001908710019087100190871001908710019087100190871001808710018087100210871002308710025087100260871002608710026087100260871002608710026087100260871002608710025087100290871002308710014087234570872345708723457087234570872345708723457087234570872345708723457087234580872345808723458087234590872345908723459087234590872345908723459087234580872345908723460087234530872346508723480087328930873289308732893087328930873289308732893087328930873289308732893087328930873289208732892087328920873289208732892087328920873289208732892087328920873289208732894087328860873289808732915087463110874631108746311087463110874631108746311087463110874631108746311087463110874631108746311087463110874631108746311087463110874631108746311087463110874631208746312087463080874631508746324087633910876339108763391087633910876339108763391087633910876339108763391087633910876339108763391087633910876339108763391087633910876339108763391087633910876339108763392087633890876339408763400087749220877492208774922087749220877492208774922087749220877492208774922087749220877492208774922087749220877492208774922087749220877492208774922087749220877492208774922087749210877492408774928087873240878732408787324087873240878732408787324087873240878732408787324087873240878732408787324087873240878732408787324087873240878732408787324087873240878732408787324087873230878732508787328088014460880144608801446088014460880144608801446088014460880144608801446088014460880144608801446088014460880144608801446088014460880144608801446088014460880144608801446088014460880144708801449]

/-- `json_database/scd96_li.json`. -/
def scd96_li : PackedFile where
  temperature := [9930123, 9947732, 9969917, 9984530, 10000020, 10047732, 10069917, 10084530, 10100020, 10130123, 10147732, 10160226, 10169917, 10177835, 10184530, 10195444, 10200020, 10247732, 10269917, 10284530, 10300020, 10347732, 10369917, 10384530, 10400020]
  density := [11400000, 11469897, 11500000, 11569897, 11600000, 11669897, 11700000, 11769897, 11800000, 11869897, 11900000, 11969897, 12000000, 12069897, 12100000, 12169897]
  levels := [
    7710170077328400774239307764841077747590779928007810608078387770785111907874955078814820789129607895817079100880791690007935515080041360802524108034206080550750806425008086460080965210812069308130844081491780815463308170137081812240821036508219926082416780825398708268516082752960829194008299501083179500832643508346472083544750836976908376688084063670842599808464325084737580849418908375202083840930838857408400568084063510842116408428189084451190845201808466871084753350851123208532010085673990857519808591866084736530847870808481453084892360849317108503997085093760852283908528663085431000855266408591202086107860864072008646802086597150863363808635294086361620863913208640818086455710864818608655543086593400867299608683877087189600873205708747774087505820875670308662831086642210866502608667419086687970867300208675355086820450868562808700401087120820874609308757240087697300877203908777265086746250867582908676586086788100868010008684146086863760869287908696517087117300872361808756313087662550877713908779205087840190868289008684017086847130868685408688098086919530869415508700632087042050871966608731567087623130877121408780863087827760878739408691122086921880869278308694774086959380869954908701623087076990871124808726897087388070876930808777766087867180878854208793083086928020869375808694357086962350869734608700875087029240870891308712303087274750873944908770485087791620878814308790022087947460869290808693812086943840869621708697302087008160870289208708606087120300872677808738840087713160878045708789841087917090879637108692475086933580869388808695676086967410870017108702171087078450871124008725607087375150877042708779814087894500879134008796027086918150869268608693185086949370869597808699304087012250870694708710223087242440873592108768834087783510878816808790092087948410869105608691907086923960869412808695141086983860870029708706015087091220872282108734318087673500877700108787029087889790879376708689446086902670869075308692443086934160869655808698481087041560870706908720078087312890876463008774581087850390878704308791909086886450868946008689942086916000869256408695674086975790870324908706167087188130872988508763307087734130878406308786099087910200867848308679259086796230868095708681809086844750868611208691209086939130870415108713324087465530875856608771680087740750877951608673535086743330867458908675773086765290867885508680333086851310868771508696884087050350873802808750880087654190876799208773628086703690867116208671336086723930867306608675115086764720868103208683523086919740869945408732303087457120876119008763879087696570866713808667907086679830866887508669442086711460867236008676634086790150868669408693466087261710874017208756649087594650876541608658408086589350865862408658763086588570865910908659773086629350866490908670148086747450870704208722890087424930874573608752382086551840865549508654947086545790865436008653697086540430865655608658305086623780866596608698082087148000873588208739342087463880865341408653541086528140865204708651584086502220865033108652366086539550865724908660171086921690870946308731527087351360874246808651872086517660865082808649579086488220864662508646461086479410864934608651804086540210868589408703801087269140873068608738335,
    2290500022904920229048702290472022904640229043702290421022903690229033602290216022901340228996302291899023128660232454902339215022228590222289002222906022229610222299002223090022231480222334002223464022239390222427402225523022258850222479202228325022342150213832302149465021549440216913302175942021933690220178802223938022348100226431402278925023180810233731602390049024146710246191103965235039805170398841204004846040126340403109204039593040609930407102304097477041100060414315204161044042158260424279904295627053462400535477705359289053705770537609005390306053970800541450205422901054449340545533405483322054998660555328905579652056328660750244807503671075046200750721307508621075128190751507107521709075254110753756607544896075698560758329107614978076280990765306807935586079364240793688407938380079392040794171207943100079475100795011507958790079644740798254107991184080095470801686008029604081214400812204408122417081235780812413708126020081270520813025308132243081390810814332208156503081622050817343108177642081850720825908908259460082597030826053508260994082623750826312108265632082671360827209608275143082833710828662908292426082945870829866708406767084068420840693408407248084074300840793408408254084091930840979608412007084132910841718308418820084220640842337608426533084586520845874908458812084590430845911908459449084597000846022808460622084621290846288808465341084663510846855208469565084722570848487108484977084850360848521808485282084855770848576608486202084864920848762608488210084901990849098708492761084936320849624808501680085017030850177008501814085019150850216608502299085026540850293508503805085042730850587508506539085080900850884408511452085138540851385808513908085139130851398008514102085141710851459508514734085154120851578308516899085174390851875408519511085220610852259208522598085226260852263808522663085227190852275308523218085232630852382408524142085249710852544008526622085274050852984908533693085336940853370908533723085337260853393208533965085342150853435708534742085350720853587408536354085375230853822408540485085376620853766108537676085376980853770008537972085380060853814908538340085386490853899308539806085402930854146608542111085443090856372408563809085638060856380108563812085638350856392608563968085640640856419208564329085647870856501208565734085662330856809208568045085680530856805508568053085680550856816208568166085681900856825508568408085684840856881208568978085695770857007408571737085689440856895408568954085689540856895208569060085690590856907908569136085692890856935508569543085697070857030108570690085723330856850508568606085686020856860108568601085686110856860808568710085687120856884108568902085690660856918308569693085700610857163708564580085650140856499608564989085649990856463708564616085650490856483008564917085649370856520208565109085652290856563508566888085622240856281708562791085627820856279708562262085622330856282108562499085625710856257308562892085627010856263008563046085641360856058008561277085612460856123508561254085606050856057108561261085608710856093408560924085612800856102408560826085612480856222908558782085595900855955408559541085595640855879408558755085595540855909108559145085591230855951808559194085588600855928808560152,
    2000000020000000200000002000000020000000200000002000000020000000200000002000000020000000200000002000000020000000200000002000000020000000200000002000000020000000200000002000000020000000200000002000000020000000200000002000000020000000200000002000000020000000226528802265540022656880226608302266262022666870226687602267334022675380226805502268299022689170226918702269765022697430227075902079364020784050207783802076334020756510207403202073312020715670207079002068822020678900206554502064481020624130206203602061993031047060311155703115628031265040313146103143294031485670316134703167068031815360318838903205669032136000322957003233548032353160665737706659633066612350666633806669053066765700668035406690379066952050670799306714266067306750673865606759860067708990680478807384754073857030738642707389093073905800739482607397089074033400740651907415148074195330743127307437140074531100746163107488134076967340769738807697885076997140770078707704013077057090771046707712964077198440772339607733039077377480775066107757624077786630793237007932858079332090793452907935296079376300793889707942388079442500794952307952274079600690796390007974183079797210799640608212407082126040821275408213398082138200821512808215776082177400821889008222040082237130822852908230963082375360824098008251425083083960830860408308766083091210830938808310319083107620831222208313071083153670831662508320300083221740832713608329697083376450835757608357703083578210835814508358377083590690835941708360606083612640836316808364220083672400836879108372856083749660838158808387772083878420838790408388176083883760838894608389263083902760839077408392408083933260839599008397323084007720840267308408484084082300840828308408335084085880840874908409263084095520841043008410860084123190841309808415496084166880841972808421438084265980842303708423089084231510842341408423539084240190842427808425050084254690842680908427463084296260843072208433493084350150843963608443192084432110844324008443519084436100844400908444232084448590844525308446401084469540844873308449673084521370845342208457363084503800845037708450378084506480845073508451092084513070845188608452254084533200845386708455504084563810845874308459960084636940849420808494220084942340849430708494355084945580849466808495037084951980849572708496037084970220849753808499150084999030850195608502471085024750850247908502485085025020850249708502657085029260850302508503630085038200850471308505220085062530850695208508947085052460850524708505246085052380850524708505193085053550850560408505695085062800850649108507078085074260850866208509314085110530850611408506117085061180850611408506127085060820850627508506502085065930850721508507425085078890850819208509355085098790851158008503571085035710850357108503571085035720850356608503587085039180850399008504457085043350850502308505372085059110850617908507960085013180850132008501320085013150850132408501282085014370850172408501776085025670850208108502968085033210850339608503378085056280849967008499673084996740849966608499681084996140849985708500116085001540850115808500433085014520850180708501577085013690850392908497830084978340849783508497824084978450849775108498089084983170849834108499571084985920849975108500107084995540849914508502034]

/-- `json_database/acd96_li.json`. -/
def acd96_li : PackedFile where
  temperature := [9930123, 9947732, 9969917, 9984530, 10000020, 10047732, 10069917, 10084530, 10100020, 10130123, 10147732, 10160226, 10169917, 10177835, 10184530, 10195444, 10200020, 10247732, 10269917, 10284530, 10300020, 10347732, 10369917, 10384530, 10400020]
  density := [11400000, 11469897, 11500000, 11569897, 11600000, 11669897, 11700000, 11769897, 11800000, 11869897, 11900000, 11969897, 12000000, 12069897, 12100000, 12169897]
  levels := [
    8197786082028570820558708214186082188560823257408239722082607240827172108302290083186450836898908395319084615040849123408561131081813140818470908186613081923320819558108205375082105070822555708233431082560680826894508311515083350250839692108425854084957510816139108163473081646220816823708170242081761310817935108188840081938710820930108218926082521380827087308322044083488420841873908148727081501220815091608153491081548920815909208161379081682020817188108183499081910020821691008231460082730920829795708367854081353960813631208136848081384810813945708142349081439000814839408150936081592890816480708183033081931180822493008247864083177610809486908094800080948480809531708095513080958500809600808096795080970750809831908098839080974860809712708108386081273510819724808075003080750040807501008075039080750170807496408074936080747140807459608073854080728000806574008062972080694100808701508156912080634190806338308063313080632260806315108062902080627350806210708061658080596380805757608047716080440510804715808063328081332240806019608060119080600260805988308059819080594300805919008058325080576310805432808051270080392300803507508032855080461450811603208076976080767030807660508076323080762110807588708075694080749260807429308070745080676010805632508052743080427340805106008120932080828200808241708082299080819960808186608081654080814960808080208080264080770930807422108063112080594660804823608055579081254540808243408081988080818560808155108081425080812120808107308080543080800830807733408074666080636110805981308047830080549120812479308079717080792660807911608078817080787180807845908078319080778850807745508074883080723120806140608057533080451530805210008121986080758590807541808075251080749360807485408074579080744310807402008073597080710690806856908057808080539040804130908048162081180510807117108070747080705670807020108070122080698780806972808069311080689080806645508064053080533910804947008036719080435100811340108060320080598610805968808059264080591480805895308058805080583880805802508055836080535880804310008039149080262060803291008102804080546320805410908053951080535470805339608053190080530390805262908052265080502100804799008037585080336190802062408027290080971830798085507980075079797680797914707978935079785230797836107977951079776180797584307974080079646870796055307946628079531600802304907947359079465730794626507945639079454250794501207944850079444460794412207942387079406590793136107927251079133430791987807989768079253290792454007924230079236020792338807922974079228130792241207922091079203760791866607909416079053180789142007897955079678470790200207901210079009000790027007900055078996400789947907899081078987620789706407895368078861580788207007868181078747170794461007830275078294790782916707828535078283180782790207827741078273460782703207825362078236890781454707810478077966050780314407873039077969620779616507795853077952200779500207794586077944250779403107793718077920540779038707781259077771950776332607769866078397610777502607774229077739170777328307773066077726500777248807772095077717820777012107768456077593350775527207741406077479460781784107751778077509810775066807750034077498170774940107749239077488460774853407746874077452110773609607732035077181700772471007794606,
    8278629082829650828615608295037083002420831470108322651083466120835989508398839084187310847406508501841085735630860594708681105082653380826886608271226082789700828321608295327083019900832209808333389083625600837907008425291084487670851089208540598086091870824859108250880082524310825761908260428082686940827325108287136082949410831742108329492083641310838211908431529084561870851959908237467082393210824031608243992082460080825200308255298082655330827135108288440082976980832491208339480083807610840251108462088082253170822678208227425082299500823135208235614082379840824539608249561082621780826910908290082083016140833563708354556084088840818934808189667081898850819067808191136081924410819322608195779081972400820213608205184082153350822106708236842082450500826917308172171081724130817251208172902081731570817391008174347081757220817660608179474081812520818695108190051081986630820343008218158081611710816131108161365081616430816175108162319081626010816348108164035081659600816704408170533081723250817757308180602081908480815157408151609081516260815170208151808081519010815192908152389081526620815357608154097081554500815612708158374081599510816648808173718081723650817167208169640081685400816562908164322081605270815870608153980081515960814512508142176081365200813483408133787082015930819974108198845081960870819457508190367081883470818263008179725081718530816770408155946081503100813867408134501081276060821348908211526082106110820772708206122082016500819944808193331081901460818130108176640081628820815615608141547081359550812579508217685082156870821475608211824082101650820555108203271081969260819361108184302081794280816477508157560081413040813516008123280082183810821633908215386082124220821073908206065082037570819726208193850081843110817925808164147081565790813946908132868081199800821737308215295082143290821134908209660082049580820263208196062081925840818291208177732081623530815453908136900081299460811639908213168082110880821012108207155082054760820074208198374081917990818827708178442081731990815753508149509081310680812379408109417082106030820853508207568082046180820294808198215081958370818926508185745081758730817063208154912081468370812810608120750081060890816562108163560081626770815998808158517081539500815156008145238081419820813248708127517081124770810440208084584080765780806041108137235081354310813434808131875081302750812588008123587081173190811404108104647080997300808498708076980080569250804889908032455081172370811541708114465081118950811044308106025081037440809758408094327080849490807999508065445080574250803735408029127080128400809580508093931080929840809045908089100080847890808252408076378080731250806402708059191080447500803694208016871080086760799233508024258080223840802143608018912080175550801324408010980080048340800158107992487079876540797321307965408079453370793714407920802079909810798910707988158079856350798427707979967079777030797155707968304079592100795437607939936079321310791206007903867078875240796906207967188079662390796371607962358079580480795578307949638079463850793729107932457079180170791021207890141078819480786560507945826079439520794300407940480079391230793481307932548079264030792314907914055079092220789478107886976078669050785871207842370,
    8324582083286850833080808335958083393620835086308357822083777630838802608419140084363160848674008512844085847530861978908705674083117200831520808317058083217330832468108334620083404700835751108366402083933030840825408452007084747310853750208568426086461940829552808298244082997480830379408306161083141230831858508332010083391670836074608372890084082410842670008477991085037470857127708284961082872070828844408291825082937530830033408303978083153140832128508339256083495210837933408394947084389390846138808522098082738060827552508276466082790990828060408285681082886080829750008302206083165770832474808348686083613250839745608416357084699070823956208240138082404650824120908241703082435930824465108247697082494440825491208258030082675920827276608288463082975780832739808223665082239680822413708224783082250890822609608226667082285590822964508232928082348900824065508243851082540200825996208279538082132360821330508213414082139530821416308214948082153630821667108217405082198130822118408225357082276630823486908239271082536270820198308202081082021630820242208202543082030630820336408204248082047180820649108207535082102200821183408217122082200900823013008179401081794210817945208179577081796600817985908179971081804240818066808181368081817900818319108183989081864070818785008192641081657030816576208165805081658110816587408165994081660380816632508166480081669080816719008168026081685160817007908170960081738530815571608155773081558140815584208155890081559560815598808156145081562480815655508156759081573920815769508158746081593640816137008147832081478070814780508147956081480100814799508148052081481500814821008148447081486020814911308149293081500160815051408152003081412540814120808141192081413350814137708141332081414140814153008141542081417630814186708142222081423650814291708143313081444500813559808135579081355720813562408135643081356090813569908135852081358250813604108136104081363110813644808136926081372240813810008126254081262650812626908126240081262380812622908126283081263940812636208126477081265330812665908126713081271200812728008127794081222730812228108122284081222630812226008122257081222850812234308122328081223750812245208122609081226070812297508123092081234740807750308077503080775020807750408077503080775070807748908077469080774420807742208077421080773090807728608077280080772090807708008054703080547030805470308054703080547030805470308054705080547050805470908054590080545510805458108054537080543570805426808054115080389620803896208038962080389620803896208038960080389610803895708038966080389250803892708038787080387480803859708038471080382390802159608021597080215970802159608021600080216060802160508021606080216050802162808021641080216050802148308021319080211750802100007962536079625360796253607962536079625360796253707962535079625430796251207962467079624500796234007962304079621560796203707961760079292580792925907929259079292590792925907929259079292570792926507929235079291900792917307929063079290270792887807928760079284820790733907907340079073400790734007907340079073400790733807907346079073160790727007907254079071430790710707906959079068410790656307884104078841050788410407884104078841040788410507884103078841110788408107884035078840180788390807883872078837240788360507883328]

/-- `json_database/plt96_li.json`. -/
def plt96_li : PackedFile where
  temperature := [9930123, 9947732, 9969917, 9984530, 10000020, 10047732, 10069917, 10084530, 10100020, 10130123, 10147732, 10160226, 10169917, 10177835, 10184530, 10195444, 10200020, 10247732, 10269917, 10284530, 10300020, 10347732, 10369917, 10384530, 10400020]
  density := [11400000, 11469897, 11500000, 11569897, 11600000, 11669897, 11700000, 11769897, 11800000, 11869897, 11900000, 11969897, 12000000, 12069897, 12100000, 12169897]
  levels := [
    6503023065030230650302306503023065030230650302206503023065029440650283806502374065016630649628806490601064600940643955406390412066411940664119406641194066411940664119406641195066411940664112406641034066404000663963806633961066277300659563706574409065236730675400306754003067540030675400306754003067540030675400406753906067537930675315606752302067461170673922306704883066827280662986106804064068040640680406406804064068040640680406906804062068040490680401606803257068024480679557106787978067509160672775006672594068432870684328706843287068432880684328706843295068432960684327406843235068424870684153506833169068241710678304306758460067001040691046606910466069104660691046706910466069104700691047906910236069100060690872406906390068899010687457306820888067934170672890306926154069261540692615406926156069261540692618006926152069258170692567906923750069209850690026206882641068254210679720506731113069330870693308706933087069330880693308706933094069330880693288006932606069303340692707206903668068847940682590206797445067308830693784106937841069378410693784006937841069378350693784106937643069372680693470806930832069051520688529006825210067966230672983106940900069409000694090006940901069409000694090706940902069407080694044706937811069338230690687706886196068252230679635906728930069400310694003106940031069400310694003106940027069400250693993606939690069374390693381206907178068865270682551206796616067291080693878506938785069387850693878606938785069387940693877706938560069384120693667606933456069079970688748906826594067976830673012906937474069374740693747406937476069374740693750506937496069372530693718506935613069326270690787106887615068268280679798106730590069362110693621106936211069362130693621106936235069362130693604506936020069344680693162806907336068873410682667706797911067307230693503606935036069350360693503506935036069350120693494006934884069348700693338106930676069068950688710906826613067978990673083406932830069328300693283006932826069328300693274906932630069326700693261506931397069288910690618706886733068266230679796606731012069317770693177706931777069317730693177706931709069316200693162206931533069304820692803706905841068865370682662306797984067310600691955206919552069195520691955206919552069195540691956106919533069195090691903706917545069008230688372006826199067980010673200806913834069138340691383406913834069138340691384106913873069137040691364106913747069124410689843906882295068258230679800206732889069100680691006806910068069100680691006806910077069101260690986506909777069102630690907906896869068813560682557506798003067334690690607506906075069060750690607606906075069060880690615506905795069056800690657006905515068952050688036006825313067980040673408406893778068937780689377806893778068937780689380006893922068932590689306106895194068945370689007806877294068245030679800706735978068880600688806006888060068880610688806006888086068882340688743006887194068899050688943306887695068758680682412706798008067368590688429306884293068842930688429406884293068843230688448706883591068833290688642106886071068861250687492906823879067980090673743906880301068803010688030106880302068803010688033306880516068795210687923306882727068825070688446006873934068236170679801006738054,
    2000000020000000200000002000000020000000200000002000000020000000200000002000000020000000200000002000000020000000200000002000000020000000200000002000000020000000200000002000000020000000200000002000000020000000200000002000000020000000200000002000000020000000200000002000000020000000200000002000000020000000200000002000000020000000200000002000000020000000200000002000000020000000200000003216049032162920321727903216891032171820321732003217329032172790321716303219944032195910321866703218416032176000321733603215712043370860433717104338560043393230433947504339591043396350433946504339347043396580433900104335955043345530433187404331650043305460605723306056970060559050605571506055689060556740605568406055458060552370605376606052276060456280604186506035130060330080602838106393293063933080639337606393389063933900639339006393345063930990639288806391422063897240638113406376112063653800636131006352701065354480653545006535460065354640653546706535401065353760653513306534855065331540653104406521095065151160650221506497279064873510663820106638212066382230663822806638232066382270663819306637934066376580663567106633432066222610661580906602261065973080658782706742090067420490674202206741938067418940674172506741617067412360674091406739105067374690672987806725856067175440671437206707680067773040677727506777264067772400677716806777118067770390677668706776447067751600677391906768390067654230675908006756544067505490679427706794330067943310679429306794256067942190679418106793931067937700679288906791958067879580678568106780627067783960677273706804925068050330680503306804963068049680680489506804868068046900680456206803871068031480679998706798122067938380679181906786368068129320681295206812954068128820681287406812789068127250681253106812384068116590681104906808143068065940680276106801007067956840681850806818448068184520681839706818371068182990681821706818017068178710681717406816661068140330681272006809217068076690680243806824744068247220682472306824707068246830682466006824622068244970682441806824030068236950682203606820968068179840681656206811489068269060682690906826910068269030682688306826873068268520682675806826702068264330682615806824867068238830682108006819674068146810684143406841544068415400684153606841535068415290684152706841517068415120684136906841330068410970684072106839284068381350683388106843454068434430684344206843441068434400684343706843436068434310684342706843411068433910684325106842980068419590684091306836881068435470684363006843637068436420684364206843641068436400684363706843635068436230684361106843515068432770684235606841445068377220684293306842944068429450684294606842945068429440684294406842943068429420684294206842943068427250684260506841764068409520683747206840735068403500684031306840286068402830684028106840281068402840684028806840303068403430683955506839849068392400683863806835780068397680683919806839143068391030683909906839096068390960683910106839106068391270683918306838120068386000683807906837569068349940683913906838447068383800683833206838327068383240683832406838329068383350683835906838426068371810683778206837317068368660683447606838476068376540683757606837518068375120683750806837508068375150683752206837550068376280683618906836918068365100683612206833927,
    2000000020000000200000002000000020000000200000002000000020000000200000002000000020000000200000002000000020000000200000002000000020000000200000002000000020000000200000002000000020000000200000002000000020000000200000002000000020000000200000002000000020000000200000002000000020000000200000002000000020000000200000002000000020000000200000002000000020000000200000002000000020000000200000002000000020000000200000002000000020000000200000002000000020000000200000002000000020000000200000002000000020000000200000002000000020574440280359902738098026166960262975002624209026251670262480402624868026248410262484602624842026248480262480902624793026248030553470605594285055890550557936105580403055799610558003805580009055800140558001105580012055800120558001205580011055800070558000906095277060906150609102406091783060917010609173606091730060917320609173206091732060917320609173206091732060917290609172806091752063139350631556306315420063151550631518406315172063151740631517306315173063151730631517306315174063151720631518806315176063150510648121706480588064806440648074606480735064807400648073906480739064807390648073906480739064807360648074406480653064805750648024606671948066719000667190406671912066719110667191106671911066719110667191206671911066719130667189606671876066715740667134406670420067341290673415006734148067341440673414506734145067341450673414506734145067341430673415206734077067340330673369306733358067319940676456406764562067645620676456206764562067645620676456206764562067645630676456006764570067644840676443306764055067636670676209406782549067825470678254706782547067825470678254706782547067825470678254806782546067825500678250406782417067819560678155506779860067942750679427606794276067942760679427606794276067942760679427606794276067942750679427806794247067942060679367706793253067915840680246506802466068024660680246506802465068024650680246606802465068024660680246406802470068024400680247706801903068014600679986406813204068132040681320406813204068132040681320406813204068132040681320406813205068132020681321906813274068126440681223906810584068169060681690606816906068169060681690606816906068169060681690606816906068169080681690106816938068169510681631306815938068142040683602206836022068360220683602206836022068360220683602106836024068360160683604706835930068358370683581806835348068350590683351406838377068383770683837706838377068383770683837706838377068383770683837706838375068383810683820806838176068379180683752006835951068387900683879006838790068387900683879006838790068387900683879006838790068387880683879606838767068386980683847806838206068366830683828606838286068382860683828606838286068382870683828606838287068382860683828706838284068382940683830206838045068377300683636806833587068335870683358706833587068335870683358706833587068335860683358906833576068336230683328206833272068333000683296906831900068310880683108806831088068310880683108806831088068310880683108606831093068310650683116206830484068305640683085706830332068294170682944206829442068294420682944206829442068294420682944206829440068294490682941206829541068286410682877906829247068285940682778206827697068276970682769706827697068276970682769706827698068276940682770606827659068278230682668806826888068275410682675306826049]

/-- `json_database/prb96_li.json`. -/
def prb96_li : PackedFile where
  temperature := [9930123, 9947732, 9969917, 9984530, 10000020, 10047732, 10069917, 10084530, 10100020, 10130123, 10147732, 10160226, 10169917, 10177835, 10184530, 10195444, 10200020, 10247732, 10269917, 10284530, 10300020, 10347732, 10369917, 10384530, 10400020]
  density := [11400000, 11469897, 11500000, 11569897, 11600000, 11669897, 11700000, 11769897, 11800000, 11869897, 11900000, 11969897, 12000000, 12069897, 12100000, 12169897]
  levels := [
    6386805063915620639409806402248064068360641969306426792064469750645771206488006065033060654279506560485065949170660476106626559063712550637445806376186063816320638464506393648063984830641255706420122064419250645304906482905064970240652553806533797065521000635358306355327063563720635955906361321063665620636942806377889063824550639561406402441064211440643030306447638064519300646121706343004063441220634481206346962063481450635164006353629063593260636240206371281063759360638865406394779064052490640756706412500063327490633350706333857063352050633598806338096063393330634294906344811063503090635311706360820063642920636971106370839063732240630952506309817063097610630979806309956063103630631051206310916063111410631138806311621063119790631220406312311063122600631212906304902063048740630487906304906063048680630471006304870063048240630482306304785063046320630429306304179063042240630422006304201063074200630745306307443063074700630744606307125063071280630714706307154063068780630673006306560063063940630623206306240063062730632350806323424063234280632342206323427063234990632350206323513063234360632323606323273063229210632294306322668063227200632288706369870063698780636987506369885063698820636987106369865063697820636982106369783063697460636979506369779063697870636973306369584063825570638248806382494063824750638247406382398063824120638244106382427063824590638245406382484063825280638260706382638063826930638491206384915063849090638484206384851063848340638484206384843063848130638484406384845063849470638502706385074063851060638516406384097063840690638406906384030063840350638405806384056063840090638400206384024063840350638419006384255063842870638431706384369063822030638213406382142063821460638214706382160063821570638209806382118063821500638216606382350063823940638244306382473063825220638003206379983063799880638000606380004063799730637997806379944063799700638001506380025063802110638025206380335063803610638039606375955063759670637596306375970063759660637588706375899063759170637592606375936063759430637609406376132063762580637627706376288063741770637419306374188063741910637418806374125063741350637415906374160063741340637415306374292063743200637444706374465063744710636424806364260063642480636408706364104063641080636411006364113063641150636410106364125063642530636427406364337063643490636435806362846063628660636284206362501063625390636255406362554063625590636255406362440063624930636280906362755063627980636280206362794063619050636193006361899063614390636149106361513063615120636151806361510063613300636140506361851063617490636178206361781063617620636089506360925063608860636030106360367063603960636039506360402063603910636014306360241063608290636067906360704063606980636066706357726063577740635771106356737063568470635690106356899063569100635688806356435063566090635765106357363063573730635735506357291063562360635629206356218063550640635519506355259063552570635527006355244063546960635490506356163063558130635582206355799063557200635525206355313063552320635395906354103063541750635417206354187063541580635354806353781063551810635479106354800063547730635468406354207063542730635418506352786063529440635302406353021063530370635300506352329063525870635413906353707063537150635368606353587,
    6566210065723880657592506587758065942680661288706622464066498270666480406707168067283080678479906811233068756950690405906969515065497580655406706556584065651410656982106583343065903350661091006622299066550950667165306716878067392860679698206823738068874150653094506533597065352690654069506543724065525480655730906571408065793060660178506613539066467730666381906710085067327380679018506519074065210970652243906526363065285420653532506538801065495940655560506573036065821550660815906621898066600320667909706729426065073620650856506509436065125180651406906518783065214540652950706534013065469080655383006573842065844200661417306629537066709160647277106473244064735020647439006474955064765850647750406480386064820160648686206489439064973130650148906513465065199240653861006457717064579170645804906458597064589450645983406460377064620400646299106465807064674240647210306474630064819190648590806497777064485470644859706448777064490270644927306449870064501720645132106451992064538570645497206458181064599170646505206467814064762100644400306444015064440390644408506444119064442340644445306444829064451470644614106446709064485420644950406452504064542310645947306505111065041480650372906502593065020110650054706499834064982760649765306496109064954780649422006493733064929120649260606492308065397350653864306538212065369320653623506534413065335970653182606531050065291860652841806526783065261190652493306524473065236560655265906551570065511330654974206549004065471120654637106544526065436640654170506540942065391650653843706537203065366720653565306557530065563730655591006554509065537940655195506551215065492630654838206546305065455400654374006542999065417620654117906540182065586920655752606557059065556530655495306553114065523320655034406549461065473770654661406544821065440890654274006542153065411660655802106556865065564020655501006554299065524550655162306549651065487710654668906545927065441410654341006541963065413850654040006554309065531390655266806551360065505970654879806547905065460060654514306542969065421950654039006539633065381870653761106536662065519300655075806550284065490050654823606546450065455500654366706542817065406310653984206538011065372530653582406535250065343310651106106510232065097460650869606508155065063940650572506503978065031340650123406500485064989060649825706496857064964180649540806490015064892750648890406487932064874550648609406485479064840470648335406481856064812140647985406479312064781420647775506476982064784470647782606477493064767420647636606475282064747580647352406473036064717600647124106470138064696960646882006468521064678850646980506469293064690760646853006468262064674340646704206466172064658320646493206464518064637370646342906462805064625610646209606446255064459370644616906446254064462540644623806446273064466750644666806447070064469380644721806447357064473810644727506447357064353050643507706435517064358970643602106436383064366160643761006437758064387650643876506439538064398840644021006440168064405040642809306427923064285020642907406429281064298910643025506431639064318890643329406433381064344790643496106435486064354860643599006420447064203400642106506421842064221360642301006423512064253100642566806427495064276730642911606429743064304790643052306431205,
    6657069066644920666836806678286066836280670203706712685067430610675834306800633068235560688833706917324069762660700371507070008066432870664895406651960066597290666397406678538066869170671099406723264067578700677675906830370068556920691463406942083070083760662594306629441066313650663647206639356066491210665469106670958066794720670445806718295067579440677811106832128068578460692162306614730066172030661855906622337066244950663156806635737066479910665440606673699066845160671600606732331067768860679918206857015066033340660514306606134066087640661024706615405066183720662713406631851066463330665452606678487066911470672700606745479067949460656993406570474065707770657162106572112065738460657485006577926065796080658489206587900065970430660206006616811066248770664773806554917065551920655535606555905065561860655717606557734065595050656053006563701065655180657106406574131065832840658828206602696065451880654539506545514065457970654595806546619065470520654826206548920065511680655244706556428065586210656512206568680065790920653503006535082065351490653542306535555065358960653614506537059065375190653905406539902065424660654397406548430065508870655806406516141065162010651624006516239065162330651660206516719065169340651719206517718065180960651923406519904065219310652297606526131065062940650626506506249065062560650622206506335065063650650643306506652065069840650716806507888065082760650934106509902065118380649974306499744064997450649974906499753064997470649975906499713064998850650014706500245065008690650110106501631065019480650338506495015064950030649500106495050064950630649508706495116064951550649521406495354064954360649577406495948064963800649663506497537064915630649154806491543064915940649160106491629064916660649174806491755064918460649191006492086064922170649258006492781064933460648897106488964064889620648898206488983064889850648901806489080064890880648918106489220064893580648944906489714064898500649025006485276064852810648528306485268064852800648529206485300064853080648532206485381064854060648551006485550064857080648577006485984064839230648392906483931064839150648393706483970064839670648396406483974064840010648402906484108064841360648427306484320064844710647819806478198064781980647819806478200064782040647819806478188064781890647818706478189064781880647818806478193064781980647812406480367064803670648036706480367064803670648036706480367064803680648036806480369064803680648037406480377064803710648038006480314064831380648313806483138064831380648313806483139064831380648313806483139064831350648314006483096064830780648309006483094064830750648682706486827064868270648682706486827064868270648682706486828064868270648683406486841064868140648681106486774064867570648676906501942065019420650194206501942065019420650194206501942065019440650193706501989065020090650200406502009065019890650198206501984065094970650949706509497065094970650949706509498065094960650950206509482065096380650969806509684065097000650963906509617065096230651447406514473065144730651447406514473065144740651447206514480065144520651467706514762065147420651476506514677065146460651465506519749065197490651974906519749065197490651974906519747065197570651972006520018065201310652010406520135065200180651997706519990]

/-- `json_database/ccd89_li.json`. -/
def ccd89_li : PackedFile where
  temperature := [10000000, 10009998, 10019996, 10029993, 10039991, 10049989, 10059987, 10069985, 10079982, 10089980, 10099978, 10109976, 10119974, 10129972, 10139969, 10149967, 10159965, 10169963, 10179961, 10189958, 10199956, 10209954, 10219952, 10229950, 10239947, 10249945, 10259943, 10269941, 10279939, 10289936, 10299934, 10309932, 10319930, 10329928, 10339925, 10349923, 10359921, 10369919, 10379917, 10389915, 10399912, 10409910, 10419908, 10429906, 10439904, 10449901, 10459899, 10469897]
  density := [11400000, 11428000, 11456000, 11484000, 11512000, 11540000, 11568000, 11596000, 11624000, 11652000, 11680000, 11708000, 11736000, 11764000, 11792000, 11820000, 11848000, 11876000, 11904000, 11932000, 11960000, 11988000, 12016000, 12044000, 12072000, 12100000]
  levels := [
    84769320847693208476932084769320847693208476932084769320847693208476932084769320847693208476932084769320847693208476932084769320847693208476932084769320847693208476932084769320847693208476932084769320847693208481931084819310848193108481931084819310848193108481931084819310848193108481931084819310848193108481931084819310848193108481931084819310848193108481931084819310848193108481931084819310848193108481931084819310848693008486930084869300848693008486930084869300848693008486930084869300848693008486930084869300848693008486930084869300848693008486930084869300848693008486930084869300848693008486930084869300848693008486930084919290849192908491929084919290849192908491929084919290849192908491929084919290849192908491929084919290849192908491929084919290849192908491929084919290849192908491929084919290849192908491929084919290849192908496927084969270849692708496927084969270849692708496927084969270849692708496927084969270849692708496927084969270849692708496927084969270849692708496927084969270849692708496927084969270849692708496927084969270850192608501926085019260850192608501926085019260850192608501926085019260850192608501926085019260850192608501926085019260850192608501926085019260850192608501926085019260850192608501926085019260850192608501926085069250850692508506925085069250850692508506925085069250850692508506925085069250850692508506925085069250850692508506925085069250850692508506925085069250850692508506925085069250850692508506925085069250850692508511924085119240851192408511924085119240851192408511924085119240851192408511924085119240851192408511924085119240851192408511924085119240851192408511924085119240851192408511924085119240851192408511924085119240851692308516923085169230851692308516923085169230851692308516923085169230851692308516923085169230851692308516923085169230851692308516923085169230851692308516923085169230851692308516923085169230851692308516923085219220852192208521922085219220852192208521922085219220852192208521922085219220852192208521922085219220852192208521922085219220852192208521922085219220852192208521922085219220852192208521922085219220852192208526921085269210852692108526921085269210852692108526921085269210852692108526921085269210852692108526921085269210852692108526921085269210852692108526921085269210852692108526921085269210852692108526921085269210853192008531920085319200853192008531920085319200853192008531920085319200853192008531920085319200853192008531920085319200853192008531920085319200853192008531920085319200853192008531920085319200853192008531920085369190853691908536919085369190853691908536919085369190853691908536919085369190853691908536919085369190853691908536919085369190853691908536919085369190853691908536919085369190853691908536919085369190853691908541918085419180854191808541918085419180854191808541918085419180854191808541918085419180854191808541918085419180854191808541918085419180854191808541918085419180854191808541918085419180854191808541918085419180854691608546916085469160854691608546916085469160854691608546916085469160854691608546916085469160854691608546916085469160854691608546916085469160854691608546916085469160854691608546916085469160854691608546916085519150855191508551915085519150855191508551915085519150855191508551915085519150855191508551915085519150855191508551915085519150855191508551915085519150855191508551915085519150855191508551915085519150855191508556914085569140855691408556914085569140855691408556914085569140855691408556914085569140855691408556914085569140855691408556914085569140855691408556914085569140855691408556914085569140855691408556914085569140856191308561913085619130856191308561913085619130856191308561913085619130856191308561913085619130856191308561913085619130856191308561913085619130856191308561913085619130856191308561913085619130856191308561913085669120856691208566912085669120856691208566912085669120856691208566912085669120856691208566912085669120856691208566912085669120856691208566912085669120856691208566912085669120856691208566912085669120856691208571911085719110857191108571911085719110857191108571911085719110857191108571911085719110857191108571911085719110857191108571911085719110857191108571911085719110857191108571911085719110857191108571911085719110857691008576910085769100857691008576910085769100857691008576910085769100857691008576910085769100857691008576910085769100857691008576910085769100857691008576910085769100857691008576910085769100857691008576910085819090858190908581909085819090858190908581909085819090858190908581909085819090858190908581909085819090858190908581909085819090858190908581909085819090858190908581909085819090858190908581909085819090858190908586908085869080858690808586908085869080858690808586908085869080858690808586908085869080858690808586908085869080858690808586908085869080858690808586908085869080858690808586908085869080858690808586908085869080859190708591907085919070859190708591907085919070859190708591907085919070859190708591907085919070859190708591907085919070859190708591907085919070859190708591907085919070859190708591907085919070859190708591907085969060859690608596906085969060859690608596906085969060859690608596906085969060859690608596906085969060859690608596906085969060859690608596906085969060859690608596906085969060859690608596906085969060859690608601904086019040860190408601904086019040860190408601904086019040860190408601904086019040860190408601904086019040860190408601904086019040860190408601904086019040860190408601904086019040860190408601904086019040860690308606903086069030860690308606903086069030860690308606903086069030860690308606903086069030860690308606903086069030860690308606903086069030860690308606903086069030860690308606903086069030860690308606903086119020861190208611902086119020861190208611902086119020861190208611902086119020861190208611902086119020861190208611902086119020861190208611902086119020861190208611902086119020861190208611902086119020861190208616901086169010861690108616901086169010861690108616901086169010861690108616901086169010861690108616901086169010861690108616901086169010861690108616901086169010861690108616901086169010861690108616901086169010862190008621900086219000862190008621900086219000862190008621900086219000862190008621900086219000862190008621900086219000862190008621900086219000862190008621900086219000862190008621900086219000862190008621900086268990862689908626899086268990862689908626899086268990862689908626899086268990862689908626899086268990862689908626899086268990862689908626899086268990862689908626899086268990862689908626899086268990862689908631898086318980863189808631898086318980863189808631898086318980863189808631898086318980863189808631898086318980863189808631898086318980863189808631898086318980863189808631898086318980863189808631898086318980863689708636897086368970863689708636897086368970863689708636897086368970863689708636897086368970863689708636897086368970863689708636897086368970863689708636897086368970863689708636897086368970863689708636897086418960864189608641896086418960864189608641896086418960864189608641896086418960864189608641896086418960864189608641896086418960864189608641896086418960864189608641896086418960864189608641896086418960864189608646895086468950864689508646895086468950864689508646895086468950864689508646895086468950864689508646895086468950864689508646895086468950864689508646895086468950864689508646895086468950864689508646895086468950865189308651893086518930865189308651893086518930865189308651893086518930865189308651893086518930865189308651893086518930865189308651893086518930865189308651893086518930865189308651893086518930865189308651893086568920865689208656892086568920865689208656892086568920865689208656892086568920865689208656892086568920865689208656892086568920865689208656892086568920865689208656892086568920865689208656892086568920865689208661891086618910866189108661891086618910866189108661891086618910866189108661891086618910866189108661891086618910866189108661891086618910866189108661891086618910866189108661891086618910866189108661891086618910866689008666890086668900866689008666890086668900866689008666890086668900866689008666890086668900866689008666890086668900866689008666890086668900866689008666890086668900866689008666890086668900866689008666890086718890867188908671889086718890867188908671889086718890867188908671889086718890867188908671889086718890867188908671889086718890867188908671889086718890867188908671889086718890867188908671889086718890867188908676888086768880867688808676888086768880867688808676888086768880867688808676888086768880867688808676888086768880867688808676888086768880867688808676888086768880867688808676888086768880867688808676888086768880868188708681887086818870868188708681887086818870868188708681887086818870868188708681887086818870868188708681887086818870868188708681887086818870868188708681887086818870868188708681887086818870868188708681887086868860868688608686886086868860868688608686886086868860868688608686886086868860868688608686886086868860868688608686886086868860868688608686886086868860868688608686886086868860868688608686886086868860868688608691885086918850869188508691885086918850869188508691885086918850869188508691885086918850869188508691885086918850869188508691885086918850869188508691885086918850869188508691885086918850869188508691885086918850869688408696884086968840869688408696884086968840869688408696884086968840869688408696884086968840869688408696884086968840869688408696884086968840869688408696884086968840869688408696884086968840869688408696884087018820870188208701882087018820870188208701882087018820870188208701882087018820870188208701882087018820870188208701882087018820870188208701882087018820870188208701882087018820870188208701882087018820870188208706881087068810870688108706881087068810870688108706881087068810870688108706881087068810870688108706881087068810870688108706881087068810870688108706881087068810870688108706881087068810870688108706881087068810871188008711880087118800871188008711880087118800871188008711880087118800871188008711880087118800871188008711880087118800871188008711880087118800871188008711880087118800871188008711880087118800871188008711880,
    85091420850914208509142085091420850914208509142085091420850914208509142085091420850914208509142085091420850914208509142085091420850914208509142085091420850914208509142085091420850914208509142085091420850914208514141085141410851414108514141085141410851414108514141085141410851414108514141085141410851414108514141085141410851414108514141085141410851414108514141085141410851414108514141085141410851414108514141085141410851914008519140085191400851914008519140085191400851914008519140085191400851914008519140085191400851914008519140085191400851914008519140085191400851914008519140085191400851914008519140085191400851914008519140085241390852413908524139085241390852413908524139085241390852413908524139085241390852413908524139085241390852413908524139085241390852413908524139085241390852413908524139085241390852413908524139085241390852413908529138085291380852913808529138085291380852913808529138085291380852913808529138085291380852913808529138085291380852913808529138085291380852913808529138085291380852913808529138085291380852913808529138085291380853413708534137085341370853413708534137085341370853413708534137085341370853413708534137085341370853413708534137085341370853413708534137085341370853413708534137085341370853413708534137085341370853413708534137085391350853913508539135085391350853913508539135085391350853913508539135085391350853913508539135085391350853913508539135085391350853913508539135085391350853913508539135085391350853913508539135085391350853913508544134085441340854413408544134085441340854413408544134085441340854413408544134085441340854413408544134085441340854413408544134085441340854413408544134085441340854413408544134085441340854413408544134085441340854913308549133085491330854913308549133085491330854913308549133085491330854913308549133085491330854913308549133085491330854913308549133085491330854913308549133085491330854913308549133085491330854913308549133085541320855413208554132085541320855413208554132085541320855413208554132085541320855413208554132085541320855413208554132085541320855413208554132085541320855413208554132085541320855413208554132085541320855413208559131085591310855913108559131085591310855913108559131085591310855913108559131085591310855913108559131085591310855913108559131085591310855913108559131085591310855913108559131085591310855913108559131085591310856413008564130085641300856413008564130085641300856413008564130085641300856413008564130085641300856413008564130085641300856413008564130085641300856413008564130085641300856413008564130085641300856413008564130085691290856912908569129085691290856912908569129085691290856912908569129085691290856912908569129085691290856912908569129085691290856912908569129085691290856912908569129085691290856912908569129085691290856912908574128085741280857412808574128085741280857412808574128085741280857412808574128085741280857412808574128085741280857412808574128085741280857412808574128085741280857412808574128085741280857412808574128085741280857912708579127085791270857912708579127085791270857912708579127085791270857912708579127085791270857912708579127085791270857912708579127085791270857912708579127085791270857912708579127085791270857912708579127085841260858412608584126085841260858412608584126085841260858412608584126085841260858412608584126085841260858412608584126085841260858412608584126085841260858412608584126085841260858412608584126085841260858412608589124085891240858912408589124085891240858912408589124085891240858912408589124085891240858912408589124085891240858912408589124085891240858912408589124085891240858912408589124085891240858912408589124085891240859412308594123085941230859412308594123085941230859412308594123085941230859412308594123085941230859412308594123085941230859412308594123085941230859412308594123085941230859412308594123085941230859412308594123085991220859912208599122085991220859912208599122085991220859912208599122085991220859912208599122085991220859912208599122085991220859912208599122085991220859912208599122085991220859912208599122085991220859912208604121086041210860412108604121086041210860412108604121086041210860412108604121086041210860412108604121086041210860412108604121086041210860412108604121086041210860412108604121086041210860412108604121086041210860912008609120086091200860912008609120086091200860912008609120086091200860912008609120086091200860912008609120086091200860912008609120086091200860912008609120086091200860912008609120086091200860912008609120086141190861411908614119086141190861411908614119086141190861411908614119086141190861411908614119086141190861411908614119086141190861411908614119086141190861411908614119086141190861411908614119086141190861411908619118086191180861911808619118086191180861911808619118086191180861911808619118086191180861911808619118086191180861911808619118086191180861911808619118086191180861911808619118086191180861911808619118086191180862411708624117086241170862411708624117086241170862411708624117086241170862411708624117086241170862411708624117086241170862411708624117086241170862411708624117086241170862411708624117086241170862411708624117086291160862911608629116086291160862911608629116086291160862911608629116086291160862911608629116086291160862911608629116086291160862911608629116086291160862911608629116086291160862911608629116086291160862911608634115086341150863411508634115086341150863411508634115086341150863411508634115086341150863411508634115086341150863411508634115086341150863411508634115086341150863411508634115086341150863411508634115086341150863911408639114086391140863911408639114086391140863911408639114086391140863911408639114086391140863911408639114086391140863911408639114086391140863911408639114086391140863911408639114086391140863911408639114086441120864411208644112086441120864411208644112086441120864411208644112086441120864411208644112086441120864411208644112086441120864411208644112086441120864411208644112086441120864411208644112086441120864411208649111086491110864911108649111086491110864911108649111086491110864911108649111086491110864911108649111086491110864911108649111086491110864911108649111086491110864911108649111086491110864911108649111086491110865411008654110086541100865411008654110086541100865411008654110086541100865411008654110086541100865411008654110086541100865411008654110086541100865411008654110086541100865411008654110086541100865411008654110086591090865910908659109086591090865910908659109086591090865910908659109086591090865910908659109086591090865910908659109086591090865910908659109086591090865910908659109086591090865910908659109086591090865910908664108086641080866410808664108086641080866410808664108086641080866410808664108086641080866410808664108086641080866410808664108086641080866410808664108086641080866410808664108086641080866410808664108086641080866910708669107086691070866910708669107086691070866910708669107086691070866910708669107086691070866910708669107086691070866910708669107086691070866910708669107086691070866910708669107086691070866910708669107086741060867410608674106086741060867410608674106086741060867410608674106086741060867410608674106086741060867410608674106086741060867410608674106086741060867410608674106086741060867410608674106086741060867410608679105086791050867910508679105086791050867910508679105086791050867910508679105086791050867910508679105086791050867910508679105086791050867910508679105086791050867910508679105086791050867910508679105086791050868410408684104086841040868410408684104086841040868410408684104086841040868410408684104086841040868410408684104086841040868410408684104086841040868410408684104086841040868410408684104086841040868410408684104086891030868910308689103086891030868910308689103086891030868910308689103086891030868910308689103086891030868910308689103086891030868910308689103086891030868910308689103086891030868910308689103086891030868910308694101086941010869410108694101086941010869410108694101086941010869410108694101086941010869410108694101086941010869410108694101086941010869410108694101086941010869410108694101086941010869410108694101086941010869910008699100086991000869910008699100086991000869910008699100086991000869910008699100086991000869910008699100086991000869910008699100086991000869910008699100086991000869910008699100086991000869910008699100087040990870409908704099087040990870409908704099087040990870409908704099087040990870409908704099087040990870409908704099087040990870409908704099087040990870409908704099087040990870409908704099087040990870409908709098087090980870909808709098087090980870909808709098087090980870909808709098087090980870909808709098087090980870909808709098087090980870909808709098087090980870909808709098087090980870909808709098087090980871409708714097087140970871409708714097087140970871409708714097087140970871409708714097087140970871409708714097087140970871409708714097087140970871409708714097087140970871409708714097087140970871409708714097087190960871909608719096087190960871909608719096087190960871909608719096087190960871909608719096087190960871909608719096087190960871909608719096087190960871909608719096087190960871909608719096087190960871909608724095087240950872409508724095087240950872409508724095087240950872409508724095087240950872409508724095087240950872409508724095087240950872409508724095087240950872409508724095087240950872409508724095087240950872909408729094087290940872909408729094087290940872909408729094087290940872909408729094087290940872909408729094087290940872909408729094087290940872909408729094087290940872909408729094087290940872909408729094087340930873409308734093087340930873409308734093087340930873409308734093087340930873409308734093087340930873409308734093087340930873409308734093087340930873409308734093087340930873409308734093087340930873409308739092087390920873909208739092087390920873909208739092087390920873909208739092087390920873909208739092087390920873909208739092087390920873909208739092087390920873909208739092087390920873909208739092087390920874409108744091087440910874409108744091087440910874409108744091087440910874409108744091087440910874409108744091087440910874409108744091087440910874409108744091087440910874409108744091087440910874409108744091,
    85279840852798408527984085279840852798408527984085279840852798408527984085279840852798408527984085279840852798408527984085279840852798408527984085279840852798408527984085279840852798408527984085279840852798408532983085329830853298308532983085329830853298308532983085329830853298308532983085329830853298308532983085329830853298308532983085329830853298308532983085329830853298308532983085329830853298308532983085329830853798208537982085379820853798208537982085379820853798208537982085379820853798208537982085379820853798208537982085379820853798208537982085379820853798208537982085379820853798208537982085379820853798208537982085429800854298008542980085429800854298008542980085429800854298008542980085429800854298008542980085429800854298008542980085429800854298008542980085429800854298008542980085429800854298008542980085429800854298008547979085479790854797908547979085479790854797908547979085479790854797908547979085479790854797908547979085479790854797908547979085479790854797908547979085479790854797908547979085479790854797908547979085479790855297808552978085529780855297808552978085529780855297808552978085529780855297808552978085529780855297808552978085529780855297808552978085529780855297808552978085529780855297808552978085529780855297808552978085579770855797708557977085579770855797708557977085579770855797708557977085579770855797708557977085579770855797708557977085579770855797708557977085579770855797708557977085579770855797708557977085579770855797708562976085629760856297608562976085629760856297608562976085629760856297608562976085629760856297608562976085629760856297608562976085629760856297608562976085629760856297608562976085629760856297608562976085629760856797508567975085679750856797508567975085679750856797508567975085679750856797508567975085679750856797508567975085679750856797508567975085679750856797508567975085679750856797508567975085679750856797508567975085729740857297408572974085729740857297408572974085729740857297408572974085729740857297408572974085729740857297408572974085729740857297408572974085729740857297408572974085729740857297408572974085729740857297408577973085779730857797308577973085779730857797308577973085779730857797308577973085779730857797308577973085779730857797308577973085779730857797308577973085779730857797308577973085779730857797308577973085779730858297208582972085829720858297208582972085829720858297208582972085829720858297208582972085829720858297208582972085829720858297208582972085829720858297208582972085829720858297208582972085829720858297208582972085879710858797108587971085879710858797108587971085879710858797108587971085879710858797108587971085879710858797108587971085879710858797108587971085879710858797108587971085879710858797108587971085879710858797108592970085929700859297008592970085929700859297008592970085929700859297008592970085929700859297008592970085929700859297008592970085929700859297008592970085929700859297008592970085929700859297008592970085929700859796808597968085979680859796808597968085979680859796808597968085979680859796808597968085979680859796808597968085979680859796808597968085979680859796808597968085979680859796808597968085979680859796808597968086029670860296708602967086029670860296708602967086029670860296708602967086029670860296708602967086029670860296708602967086029670860296708602967086029670860296708602967086029670860296708602967086029670860296708607966086079660860796608607966086079660860796608607966086079660860796608607966086079660860796608607966086079660860796608607966086079660860796608607966086079660860796608607966086079660860796608607966086079660861296508612965086129650861296508612965086129650861296508612965086129650861296508612965086129650861296508612965086129650861296508612965086129650861296508612965086129650861296508612965086129650861296508612965086179640861796408617964086179640861796408617964086179640861796408617964086179640861796408617964086179640861796408617964086179640861796408617964086179640861796408617964086179640861796408617964086179640861796408622963086229630862296308622963086229630862296308622963086229630862296308622963086229630862296308622963086229630862296308622963086229630862296308622963086229630862296308622963086229630862296308622963086229630862796208627962086279620862796208627962086279620862796208627962086279620862796208627962086279620862796208627962086279620862796208627962086279620862796208627962086279620862796208627962086279620862796208627962086329610863296108632961086329610863296108632961086329610863296108632961086329610863296108632961086329610863296108632961086329610863296108632961086329610863296108632961086329610863296108632961086329610863296108637960086379600863796008637960086379600863796008637960086379600863796008637960086379600863796008637960086379600863796008637960086379600863796008637960086379600863796008637960086379600863796008637960086379600864295908642959086429590864295908642959086429590864295908642959086429590864295908642959086429590864295908642959086429590864295908642959086429590864295908642959086429590864295908642959086429590864295908642959086479570864795708647957086479570864795708647957086479570864795708647957086479570864795708647957086479570864795708647957086479570864795708647957086479570864795708647957086479570864795708647957086479570864795708652956086529560865295608652956086529560865295608652956086529560865295608652956086529560865295608652956086529560865295608652956086529560865295608652956086529560865295608652956086529560865295608652956086529560865795508657955086579550865795508657955086579550865795508657955086579550865795508657955086579550865795508657955086579550865795508657955086579550865795508657955086579550865795508657955086579550865795508657955086629540866295408662954086629540866295408662954086629540866295408662954086629540866295408662954086629540866295408662954086629540866295408662954086629540866295408662954086629540866295408662954086629540866295408667953086679530866795308667953086679530866795308667953086679530866795308667953086679530866795308667953086679530866795308667953086679530866795308667953086679530866795308667953086679530866795308667953086679530867295208672952086729520867295208672952086729520867295208672952086729520867295208672952086729520867295208672952086729520867295208672952086729520867295208672952086729520867295208672952086729520867295208672952086779510867795108677951086779510867795108677951086779510867795108677951086779510867795108677951086779510867795108677951086779510867795108677951086779510867795108677951086779510867795108677951086779510867795108682950086829500868295008682950086829500868295008682950086829500868295008682950086829500868295008682950086829500868295008682950086829500868295008682950086829500868295008682950086829500868295008682950086829500868794908687949086879490868794908687949086879490868794908687949086879490868794908687949086879490868794908687949086879490868794908687949086879490868794908687949086879490868794908687949086879490868794908687949086929480869294808692948086929480869294808692948086929480869294808692948086929480869294808692948086929480869294808692948086929480869294808692948086929480869294808692948086929480869294808692948086929480869294808697947086979470869794708697947086979470869794708697947086979470869794708697947086979470869794708697947086979470869794708697947086979470869794708697947086979470869794708697947086979470869794708697947086979470870294508702945087029450870294508702945087029450870294508702945087029450870294508702945087029450870294508702945087029450870294508702945087029450870294508702945087029450870294508702945087029450870294508702945087079440870794408707944087079440870794408707944087079440870794408707944087079440870794408707944087079440870794408707944087079440870794408707944087079440870794408707944087079440870794408707944087079440870794408712943087129430871294308712943087129430871294308712943087129430871294308712943087129430871294308712943087129430871294308712943087129430871294308712943087129430871294308712943087129430871294308712943087129430871794208717942087179420871794208717942087179420871794208717942087179420871794208717942087179420871794208717942087179420871794208717942087179420871794208717942087179420871794208717942087179420871794208717942087229410872294108722941087229410872294108722941087229410872294108722941087229410872294108722941087229410872294108722941087229410872294108722941087229410872294108722941087229410872294108722941087229410872294108727940087279400872794008727940087279400872794008727940087279400872794008727940087279400872794008727940087279400872794008727940087279400872794008727940087279400872794008727940087279400872794008727940087279400873293908732939087329390873293908732939087329390873293908732939087329390873293908732939087329390873293908732939087329390873293908732939087329390873293908732939087329390873293908732939087329390873293908732939087379380873793808737938087379380873793808737938087379380873793808737938087379380873793808737938087379380873793808737938087379380873793808737938087379380873793808737938087379380873793808737938087379380873793808742937087429370874293708742937087429370874293708742937087429370874293708742937087429370874293708742937087429370874293708742937087429370874293708742937087429370874293708742937087429370874293708742937087429370874793608747936087479360874793608747936087479360874793608747936087479360874793608747936087479360874793608747936087479360874793608747936087479360874793608747936087479360874793608747936087479360874793608747936087529340875293408752934087529340875293408752934087529340875293408752934087529340875293408752934087529340875293408752934087529340875293408752934087529340875293408752934087529340875293408752934087529340875293408757933087579330875793308757933087579330875793308757933087579330875793308757933087579330875793308757933087579330875793308757933087579330875793308757933087579330875793308757933087579330875793308757933087579330876293208762932087629320876293208762932087629320876293208762932087629320876293208762932087629320876293208762932087629320876293208762932087629320876293208762932087629320876293208762932087629320876293208762932]

/-- `json_database/scd96_ne.json`. -/
def scd96_ne : PackedFile where
  temperature := [9930123, 9947732, 9969917, 9984530, 10000020, 10017629, 10030123, 10047732, 10069917, 10084530, 10100020, 10117629, 10130123, 10147732, 10169917, 10184530, 10200020, 10217629, 10230123, 10247732, 10269917, 10284530, 10300020, 10317629, 10330123, 10347732, 10369917, 10384530, 10400020, 10417629]
  density := [11369897, 11400000, 11430103, 11469897, 11500000, 11530103, 11569897, 11600000, 11630103, 11669897, 11700000, 11730103, 11769897, 11800000, 11830103, 11869897, 11900000, 11930103, 11969897, 12000000, 12030103, 12069897, 12100000, 12130103]
  levels := [
    38257300385933303895938039462620398499004024157040764940411661504157385042123710425502304298920043593100440705804456486045223590457087504616961046722890470990504744587047930060481744404846662054306350543070405430874054315840543309205436681054486380546694305494552055417870558200905624511056832840572950805777069058405950588744505931836059886670602487606054437060961690612686006157546066439350664394106643956066439850664408206644361066452290664698206651225066652120668629906717140067681170681059306854473069124460695483206994933070438090707776807109389071465500717201007197114071842650718426607184267071842770718429407184328071844800718485907185822071892900719580107208934072409030727540707314900073693870740972807447967074944400752608307554382075855390760574507625526075841860758418607584187075841870758419307584211075842360758433207584634075855930758756307592484076091050763304307665698077151850775301407789310078328860786121707884866079098960792608607941947079067130790671307906713079067140790671507906719079067310790676607906859079071680790786207909670079164640792874207950090079900650802399908057442080965450812035708138812081581990817132408184307080751940807519408075194080751940807519508075198080751980807521608075282080754520807580608076739080803040808739408101512081328960816283708193514082287300824933808265016082812780829220108303001082463020824630308246304082463050824630408246305082463120824631808246326082464010824659308247062082488460825254708260707082821340830575608331964083618930837851908390992084039750841274008421417083894090838940708389403083894030838940608389402083894030838939808389385083895140838968308389858083907370839265908396939084097370842625108446270084697790848271908492607085030500851006008516986084554430845544508455464084554670845545708455467084555010845551408455509084556260845577308455902084565470845786508460685084695470848187908497813085173860852840208537117085464720855271408558870085088440850884708508871085089200850896108509000085090240850904808509120085092130850930908509515085099810851077408512615085185530852721208539146085548740856415108571718085800300858564208591179085553330855532908555311085553880855547008555456085554340855548208555568085557190855583908555959085562750855682908557993085616400856721808575477085871600859443808600741086079140861279308617607085811940858119408581196085811990858123808581341085814520858148108581496085815400858164308581836085821150858247308583297085858430858985308596112086054560861153008616940086232590862764108631977086096250860962808609639086095850860962008609874086100290860998308610040086100080861002208610325086105150861056708611073086127260861530108619509086262980863098608635248086405210864441208648298086372830863728208637281086372860863728608637267086372360863725408637338086374240863746508637540086376220863774008638073086389930864043308642912086472870865063108653874086580080866108308664167086524410865244108652442086524370865243308652437086524510865244208652406086524820865257308652557086526230865276508652914086535240865458808656338086595670866217608664781086682590867094608673660086667890866678808666785086668030866682408666824086668190866682108666822086668510866688808666918086669630866702008667131086675610866827008669459086717650867374108675796086786700868096508683297086817280868172708681723086817440868176808681771086817680868176908681768086817670868177708681803086818380868186808681940086821950868261608683359086849310868638708687951086902430869213808694084086916140869161508691616086916080869159708691595086916020869159708691581086916700869176608691764086917670869182508691889086920000869225808692851086940050869509208696443086984220869997908701574087048520870485108704849087048590870486808704866087048820870486908704812087051100870546608705525087054520870545008705467087054430870560908706156087067180870725308708505087101260871099708711850087214480872144608721438087214780872152108721519087215470872152208721412087219840872268208722830087226590872257208722528087223600872245608723028087229480872282408723992087251760872516308725051087323790873237608732364087324250873249008732489087325250873249208732347087330980873402308734229087339930873385108733769087335140873357808734194087337370873320108734324087352270873463508733891087439660874396208743947087440290874411708744117087441600874411908743938087448800874604308746313087460080874580808745686087453440874538208746060087452290874427108745355087459670874476508743355087571390875713408757114087572200875733508757335087573880875733808757114087582730875970908760049087596670875940108759236087587970875881308759574087583410875691908757967087582540875636508754204087664850876647908766456087665790876671308766714087667730876671608766463087677760876940408769795087693580876904508768850087683450876834808769174087676670876592108766948087670110876463708761946087796580877965108779623087797700877993108779933087800010877993508779639087811690878307008783532087830170878263908782402087818050878179208782715087808320877863808779641087793910877634008772906087962530879624508796211087963890879658408796586087966660879658808796240087980420880028608800838088002260879976608799476087987650879873708799788087974400879469208795671087950360879113608786773088071850880717508807137088073360880755208807556088076430880755808807174088091570881162708812237088115610881104708810723088099370880990008811037088083890880527908806246088053600880090408795933088187720881876208818720088189400881918008819184088192790881918508818765088209380882364708824321088235760882300608822645088217810882173508822965088200010881651008817465088163160881127408805660088319450883193308831887088321310883239708832402088325070883240408831941088343310883731308838057088372360883660008836198088352450883519008836527088332050882928408830228088287820882307408816732,
    22172810221672602216172022154660221500102214687022140450221363902214414022026690218125002170754021669230216120402155770021490980214377402141012021464760216155102182335022112030223160102247604028759880290016302926930029638610299146003018575030535060307934203105175031397720316642503193587032305020325932403288943033301870336293303395456034429820348508103526287035726250359991503619609050011700500378505008070050184530503292505055928050983120513640005176689052312820527313105315454053725660541700505462608055249760557408605625189056950830574792205797979058546810588745705911062060213410602156706021885060225120602332006024877060306090604135506061025060999260613603406175034062291010627139006314664063735670641972906467491065326670658214306629395066835290671511706737867067863720678651806786702067869260678701706787035067871550678792406790453067992300681305506835672068776810691570506956488070129570705728607102937071648060721135607255136073041180733198507351867073862220738605607385854073856000738551707385629073860300738629707386208073860320738733807392274074084040743011507460330075095780755087707594012076513630769180607725294077580140777612507790251076872990768734507687401076874710768749507687471076873660768731907687481076881020768894407690442076956920770571907724794077639440780119207841843078944250792788907952037079734040798679707999395079935680799355807993545079935280799352207993532079935490799355307993564079936070799374507994195079958680799919908006640080284450805572608089676081324250815489108168810081821960819448008208927082439840824398408243983082439910824400108243991082440180824409608244141082441360824415708244298082448310824587208248330082572020827151608293512083221480833498308342940083540140836687808382954083555590835556408355568083555700835556908355574083555880835559508355590083556410835575308355863083561420835673208358058083628590837137108386020084060110841475808420821084310980844335708458720084429090844293008443014084431160844311808443109084431180844313308443144084431610844319608443274084435120844388908444627084472090845200208460815084735220847934808483858084925840850327308516554085152700851528008515318085153570851534608515344085153660851538408515397085153870851539008515515085157780851599008516384085177600852028308524971085321020853576608538912085454020855353908563798085537330855373208553726085537330855375908553776085537780855378008553804085538450855387908553965085541360855430008554594085554950855708408560099085648590856748008569865085748890858123408589373085947210859472308594733085947610859478408594791085947880859480108594833085948870859492208594956085950350859515708595360085958890859676108598410086011180860276708604383086078300861216708617779086304410863044408630458086304740863047208630465086304760863049408630476086305340863069108630769086307540863078108630925086312160863158508632451086339910863494708635911086379930864064408644170086471070864710608647106086471040864710308647110086471220864712208647114086471630864726208647319086473200864733608647433086476340864788608648474086495370865022708650929086524250865436008657046086603940866039408660393086603930866039308660394086603950866039408660394086603970866040308660403086604180866047608660604086607960866094908661269086619530866251608663064086641540866559308667609086710820867108308671083086710830867108408671083086710820867108208671081086710810867107808671052086710470867111208671206086713190867142408671666086721500867251608672893086737200867480908676276086762650867626508676265086762650867626508676265086762650867626508676267086762630867626108676296086763610867638408676393086764340867654108676757086771470867743908677748086784210867930808680539086812670868126708681267086812670868126708681267086812670868126708681269086812630868125908681294086813340868132408681360086814420868149108681603086818890868216408682437086829430868360708684580086856730868567308685673086856730868567308685673086856730868567308685673086856730868567408685672086856710868567108685659086857040868582208685950086861650868638008686564086868910868736508688073086879510868795108687951086879510868795108687951086879510868795108687951086879520868795208687948086879590868799608688039086880850868811808688177086883300868849108688653086889560868936708689987086900650869006508690065086900650869006508690065086900650869006508690065086900660869006608690062086900720869010608690153086901840869018108690227086903610869048108690618086908340869110908691649086923950869239508692395086923950869239508692395086923950869239508692395086923950869239508692395086924040869241908692432086924270869242608692492086926250869270408692806086928920869298208693431086940500869405008694050086940500869405008694050086940500869405008694050086940490869404908694052086940600869406308694052086940210869402108694103086942370869428608694364086943570869431608694702086963840869638408696384086963840869638408696384086963840869638408696385086963840869638308696390086963980869638508696339086962700869627308696379086965150869652208696567086964280869620108696500086993300869933008699330086993300869933008699330086993300869933008699331086993290869932708699339086993480869931908699228086991090869911608699255086993950869934908699352086990490869858508698777087012730870127308701273087012730870127308701273087012730870127308701274087012710870127008701284087012940870125608701135087009820870099208701154087012980870121708701193087007830870016208700284087033350870333508703335087033350870333508703335087033350870333408703336087033330870333108703348087033590870331408703160087029700870298408703171087033200870320108703149087026260870183808701888087056810870568108705681087056810870568108705681087056810870568108705682087056790870567708705697087057100870565808705467087052330870525208705470087056240870546208705380087047270870374808703719,
    20477120204771202047712020477120204771202047712020477120204771202047712020477120204771202047712020477120204771202047712020477120204771202047712020477120204771202047712020477120204771202047712020477120204771202047712020477120204771202047712020477120204771202047712020477120204771202047712020477120204771202047712020477120204771202047712020477120204771202047712020477120204771202047712029486430294892202949033029492090294972202951066029560360296562102983826030223370305854603097842031522010319439403237659032975070334513003395197034660270352319703583599036680310373330503797157043520790435305504353471043538320435421704354962043575860436286204374057044018200443211604468020045203100456239004606110046657930471289004761939048299280488467104942583050233130508635805148961056063670560689505607143056073220560738605607378056072140560684605606077056043190560305905603320056097640562264705644637056870560572690205771010058334330588348405936264060105030606922506128401065641430656468606564964065651650656525206565298065653290656535706565408065655200656561006565728065660180656636906567415065721480658129206599058066391820667966706725585067910710684347206897206070846010708505607085298070854670708553107085563070855780708554907085482070853500708520407085087070851360708525407085346070854370708594307088461070992440711615707142714071919930723669907284792075964860759676007596917075970280759706907597088075971030759711907597151075972290759727907597311075973370759730907597324075976080759785107597911075978450759905307603974076225080764866307683444079905030799044307990406079903790799036907990363079903580799036007990357079903370799037807990452079904720799043907990441079905950799068107990770079911970799190307993324079977720800478508015932081636470816343608163310081632340816321908163217081632130816321208163218081632390816327208163309081633380816337208163424081635110816360608163734081639920816439108165204081675300817080108176039083031290830371408303787083034130830294108302409083017210830126608300849083002670829983308299448082990450829872408298380082980100829783108297728082976660829772108297995082990100830057608303415083991630839913808399133083991530839917408399191083992030839923608399285083993310839936508399410083994800839954208399616083997430839988608400071084003650840066808401121084021450840342008405444084516450845150008451413084513750845137608451378084513620845136708451385084513880845139908451420084514460845149008451559084516620845175008451872084521420845243208452837084536920845475608456424085072180850722408507245085072890850732208507345085073590850738708507413085073940850745308507549085075630850763008507742085077700850782308507983085083170850857608508881085095720851042308511689085528440855273108552667085526360855263708552646085526550855264708552649085527100855273908552757085528390855286808552881085529950855308508553161085533310855356508553878085543770855496508555864085740630857398508573946085739310857393408573944085739560857394808573951085740170857402708574013085740830857412008574136085742200857427908574354085745800857475908574952085753920857590408576623085908500859079708590773085907680859077208590776085907760859077008590772085908120859084408590859085908570859089708590960085909940859102008591089085912600859139708591562085919420859237208592951086049100860487908604864086048540860485408604864086048950860490708604904086049030860491708604942086049680860499208605016086050410860508708605153086052340860534308605509086057960860610808606546086127710861275008612741086127370861273708612743086127580861276108612761086127730861277908612784086128160861283708612851086128840861293208612994086130860861317708613298086135220861377408614132086218940862188308621880086218780862187808621881086218900862189108621890086219020862191208621918086219230862193008621948086219980862203008622063086221480862222208622305086224730862266808622938086311810863117608631175086311730863117308631175086311810863118108631181086311950863120108631204086312170863123008631242086312620863128808631326086313790863140108631432086315670863170708631886086364500863644708636446086364470863644708636447086364460863644408636445086364510863645208636451086364550863646108636463086364620863648108636499086364760863653508636642086366980863679208636969086414650864146308641463086414630864146308641463086414640864146408641464086414620864146208641462086414610864145808641458086414600864144708641453086415540864162408641647086416390864169108641838086466550864665308646653086466530864665308646653086466530864665308646653086466530864665308646653086466530864665408646654086466530864665508646654086466550864671808646797086467950864684508646964086501480865014708650146086501460865014608650146086501470865014708650147086501460865014608650146086501460865014608650146086501440865015208650149086501070865016408650271086502890865029908650362086549950865499408654994086549940865499408654994086549940865499408654994086549940865499408654994086549950865499508654995086549970865499108654993086550390865507708655114086551620865507208655013086611040866110408661104086611040866110408661104086611030866110308661103086611040866110508661104086611060866110508661106086611130866109008661097086612580866127208661220086613050866109108660880086651320866513108665131086651310866513108665131086651310866513008665130086651320866513208665132086651340866513308665134086651440866511008665121086653560866535408665245086653540866506208664753086694040866940308669403086694030866940308669403086694030866940208669402086694050866940508669404086694070866940508669407086694210866937508669389086697010866968308669515086696500866927608668866086742640867426308674264086742640867426408674264086742630867426208674262086742650867426608674265086742680867426608674268086742860867422708674246086746430867460608674373086745370867407308673551,
    20803500206020602060206020602060206020602060206020602060206020602060206020602060206020602060206020602060206020602060206020602060206020602060206020602060206020602060206020602060206020602060206021121230206157402060206020602060206020602060206020602060206020602060206020602060206020602060206020602060206020602060206020602060206020602060206020602060206020602060206020602060206020602060206021648250213166902102445020741320206126102060206020602060206020602060206020602060206020602060206020602060206020602060206020602060206020602060206020602060206020602060206020602060206020602060206027440770274450102744900027451100274511502745086027450820274509302745101027451010274510502745127027451810274530002745890027485220275414102768439028070830285041802901354029755370303585103098794045540740455496104555759045562710455636704556372045563880455640504556416045564170455641904556420045564180455641104556405045563700455629004556216045566210455925604570128046066700465205104707148059155040591708605918457059193870591960905919677059197750591984305919882059198840591988005919879059198810591988505919894059199330592002805920270059209500592174205922575059255200593422305957183065740020657563506577078065781630657851506578680065788270657889806578934065789410657893906578937065789380657893906578940065789470657897106579028065791920657944906579988065820020658664706599060072177520721917407220424072214400722184707222076072222400722229207222308072223150722234307222364072223640722236807222362072223750722246307222540072226260722285207223301072248660722816107235784077523640775328707754083077547900775514607755383077555480775559107755591077555740775558807755601077556030775562007755629077556710775581007755931077560100775617307756515077575120775918107762597079890100798956107989994079903770799060107990774079909100799095707990967079909580799097407990995079910200799105807991102079911640799123107991334079915240799170207991999079927800799391407996057081650000816521908165358081654960816560908165687081656990816570008165747081658470816585208165845081658880816593708166006081661200816620108166322081665900816686008167208081679320816891608170575083016340830161008301499083013700830134908301356083013490830134508301353083013900830143108301476083015440830161908301693083017870830190408302074083023830830268308303086083038870830482308306238083717340837160008371384083711520837107808371057083710430837104508371057083710950837114708371195083712570837134908371453083715830837170108371851083721330837244508372843083735780837444508375718084441080844389808443595084432450844310208443044084430280844303608443035084430380844309308443140084431530844318908443271084434380844358008443721084439480844422708444616084453280844607508447112085038390850359908503284085029270850276208502668085025880850255508502536085025550850263708502713085027500850277808502846085029820850305808503156085033890850364108503941085044540850504308505907085303640853014808529868085295430852939108529309085292540852923108529205085292100852932008529411085294000852938408529455085296350852965708529691085299190853018508530453085308490853135908532132085510760855090408550682085504250855030908550260085502620855028608550301085502960855028808550281085503060855038108550433085504460855051508550618085507660855091208551125085515490855199808552653085678100856769208567559085674270856737408567340085672970856727508567268085672750856727608567305085673720856737308567389085674800856754308567605085677080856781408567986085683320856866408569200085763460857625708576150085760320857597708575947085759250857591508575904085759050857594508575975085759830857602208576047085760590857613808576217085762850857639508576547085768050857710408577598085847840858472508584655085845790858454408584525085845130858450708584499085845000858453308584558085845610858458708584613085846240858464508584697085847990858486608584975085852350858549908585886085908630859082608590782085907320859070908590696085906880859068508590682085906830859070108590726085907410859072708590736085907980859082008590836085908970859099008591088085912350859144908591801085926430859261408592580085925420859252408592513085925040859250108592502085925020859249508592508085925510859255108592561085926020859259508592618085927080859273208592782085929630859315908593455085928570859283308592805085927730859275808592749085927430859274008592739085927390859274408592742085927410859277108592792085927940859282008592848085928930859298708593071085931500859330508593585085919230859190308591879085918500859183708591830085918260859182408591819085918200859184608591874085918820859187308591883085919220859192708591932085919840859206208592134085922210859235808592595085909660859094808590925085908990859088608590877085908710859086908590870085908680859086408590880085909260859093208590924085909260859095308590990085910340859106508591104085911960859132708591527085892590858924208589220085891940858918108589172085891660858916408589163085891630858916408589163085891540858915008589172085892210858921408589216085892670858929608589354085894930858959808589758085868050858678908586767085867410858672608586716085867100858670808586707085867060858670608586702085867200858678308586810085867610858676308586785085868390858693908586984085869630858708108587251085851740858515808585137085851100858509408585084085850770858507408585074085850730858506908585065085851100858522408585252085851240858513708585178085852340858538708585419085852730858540408585585085834460858343108583410085833830858336708583355085833470858334508583345085833430858333608583331085834050858357408583601085833910858341608583477085835340858374308583762085834820858362708583820085814840858146908581448085814210858140408581392085813830858138108581382085813790858136808581362085814690858169908581727085814230858146108581545085816040858187808581882085814480858160908581815,
    20301030203010302030103020301030203010302030103020301030203010302030103020301030203010302030103020301030203010302030103020301030203010302030103020301030203010302030103020301030203010302030103020301030203010302030103020301030203010302030103020301030203010302030103020301030203010302030103020301030203010302030103020301030203010302030103020301030203010302030103020301030203010302030103020301030203010302030103020301030203010302030103020301030203010302030103020301030203010302030103020301030203010302030103020301030203010302030103020301030203010302030103020301030203010302030103020301030203010302030103020301030203010302030103020301030203010302030103020301030203010302030103020301030203010302030103020301030203010302030103020301050203011002030126020305120203209202038481029293310292933002929328029293280292933202929338029293380292932402929357029297320293048702932323029395530295400602980168030331630308135203131197031961520324532403296066033672280342410303483286047563270475632804756330047563300475632604756320047563200475633504756362047563960475640504756437047567090475725004758484047630990477249704790613048313660487200104917555049819870503325605086697057100230571002405710025057100250571002305710019057100190571002605710038057100420571002005709966057098200570955305709133057087710570980305713430057253220574315305770907058226900586897705917981066679800666798106667982066679820666797806667973066679710666798206668002066680170666799906667976066680370666813806668265066684810666859806668643066689980667086206676139066929030671655906750389074345500743455107434554074345530743454707434536074345340743455407434591074346380743464207434596074344580743437607434361074343720743444607434577074347560743515607436096074388410744350007453208077525150775251707752521077525200775251107752497077524940775251907752569077526360775265307752622077525240775241507752309077522540775235207752577077529770775335607753945077556350775826807763470079924540799245307992452079924520799245307992455079924520799244007992425079924290799246807992499079923900799227807992244079923440799246307992605079929800799341607993989079951400799681207999898081808480818084708180846081808460818084808180855081808730818089808180932081809750818099308180989081809490818091408180907081809680818107808181250081816060818199408182507081834690818465108186583082761230827612508276128082761280827612008276107082761080827614108276202082762880827632308276318082762740827623708276229082763050827644608276657082770100827733008277738082785870827958208281076083728230837282208372820083728200837282408372833083728510837286708372885083729140837294108372963083729660837297108373000083730750837318808373354083736190837390108374288083749660837572608376867084520750845207508452076084520760845207408452071084520660845206408452065084520670845206708452077084521280845213908452120084521930845228608452391084526460845288708453157084536960845425608455041084866930848669308486694084866940848669008486685084866860848670008486725084867580848676608486764084867920848682608486861084869280848701608487131084872830848746008487728084881790848865608489347085131260851312708513129085131290851312408513116085131150851313308513166085131960851318208513174085133210851340108513370085133530851344008513576085136640851376708513980085143730851484508515513085340460853404608534046085340460853404608534046085340460853404508534043085340410853404108534039085340330853402808534034085341060853423208534363085343620853446408534752085350840853538808535887085443420854434108544340085443400854434308544348085443470854433108544309085443090854436208544438085444470854441808544420085445180854458708544611085446730854481908545044085453280854558508545994085546280855462708554627085546270855462808554629085546290855462508554619085546170855463008554645085546400855467608554748085547520855476608554842085549360855501708555130085553310855559308556016085619610856196108561961085619610856196108561961085619600856196108561962085619630856196508561968085619760856196108561943085620160856209208562148085622520856235208562462085626410856284108563146085642630856426308564263085642630856426308564262085642620856426308564263085642630856426108564260085642640856426008564258085643130856438708564441085644090856448008564677085648290856498008565289085652900856529008565290085652900856528908565289085652890856529008565291085652920856529108565290085652940856528408565275085653490856539408565393085654340856549408565571085657490856592308566171085654660856546608565465085654650856546508565466085654660856546508565463085654630856546708565468085654560856548408565548085655690856555408565555085656180856567008565727085659200856609008566262085651690856516908565169085651690856516908565170085651700856516908565167085651670856517108565171085651560856518908565263085652840856526308565260085653240856538508565445085655920856572708565900085645310856453108564531085645310856453108564531085645310856453108564530085645300856453108564531085645280856453408564544085645350856456108564619085646340856465808564724085647820856487808565078085631190856311908563119085631190856311908563119085631190856311908563119085631190856311908563119085631180856312108563123085631110856314208563209085632270856322608563276085634410856355308563660085621000856210008562100085621000856210008562100085621000856210008562100085621000856210008562100085620990856210108562101085620860856211708562190085622190856218808562169085622810856241708562551085610260856102608561026085610260856102608561026085610260856102608561026085610260856102608561026085610260856102608561022085610030856103708561117085611560856109008560995085610370856119408561364085598160855981608559816085598160855981608559816085598160855981608559816085598160855981608559816085598160855981508559805085597830855981908559906085599570855985308559672085596340855981108560017,
    20301030203010302030103020301030203010302030103020301030203010302030103020301030203010302030103020301030203010302030103020301030203010302030103020301030203010302030103020301030203010302030103020301030203010302030103020301030203010302030103020301030203010302030103020301030203010302030103020301030203010302030103020301030203010302030103020301030203010302030103020301030203010302030103020301030203010302030103020301030203010302030103020301030203010302030103020301030203010302030103020301030203010302030103020301030203010302030103020301030203010302030103020301030203010302030103020301030203010302030103020301030203010302030103020301030203010302030103020301030203010302030103020301030203010302030103020301030203010302030103020301030203010302030103020301030203010302030103020301030203010302030103020301030203010302030103020301030203010402030104020301060203010902030114020301250203013702030148020301580203016002030159020301710203020002030255020303490203054602031408041898470418994504190035041901580419025604190355041904800419056904190656041907670419084904190928041910260419109704191168041912460419129804191349041914090419144804191488041915660419169404192029059625120596218705961889059614840596116005960835059604220596012605959839059594680595919205958920059585630595829605958037059577250595752105957345059571540595703505956935059568260595675805956701072674550726805507268604072693520726994807270547072713060727184907272370072730320727350507273942072744330727471807274931072751600727534007275535072757990727598607276154072763460727646707276566070717880707185707071940070721020707227907072508070728950707328107073790070747180707565107076805070787000708039307082284070851300708752507090158070942130709791207102371071098820711734407126929074711140747113807471166074711990747122907471277074713930747155107471803074723430747295307473781074752970747682407478661074813590748355307485946074895420749278807496688075031040750925907516935077736840777378107773866077738990777387807773867077739400777409207774339077748440777541507776220077777890777945407781486077843290778643007788533077914180779382007796570078010750780542507810860080172030801712808017057080169460801686808016834080169110801707708017338080178450801839908019170080206640802221008024047080266120802839808029994080320370803367808035516080385390804147008045143081368450813691608136984081370900813717708137257081373310813737708137444081376330813793008138460081397260814120408143066081456980814746208148946081507020815206408153593081560760815845008161425082503070825029608250297082503270825036808250411082504580825050908250614082509290825139808252192082540140825611008258734082623360826459908266330082681440826939108270687082727240827462508276985083543620835436008354356083543430835433408354339083543860835445508354552083547500835503608355571083569330835857408360703083638360836592308367513083690000836991808370859083722780837358808375241084101620841016508410168084101740841017908410183084101860841019908410236084103590841053808410829084115060841238608413629084155190841682208417834084188610841952508420159084210900842199208423189084302620843026208430261084302610843026108430264084302770843030208430353084304980843071108431086084320240843326008435012084377650843970908441212084425480844333308444127084451330844601408447221084519580845195708451958084519630845196808451968084519590845196008451996084521450845235908452687084534290845447908456068084585270846030308461762084630650846377308464464084654440846632308467449084696380846963808469638084696410846964308469644084696420846964608469666084697460846987508470099084706450847134008472344084740410847533408476396084773120847784008478431084792550848000908481030084902310849023108490231084902320849023308490233084902300849023008490239084902800849034608490462084907410849110308491622084924730849313308493705084942850849466208495058084956320849621108497032085016390850163608501633085016250850161908501616085016250850163908501654085016690850168908501739085018940850208508502349085028520850324408503555085039280850420408504478085049490850544208506108085157890851581708515837085158670851589508515926085159730851601108516051085161080851615408516206085162940851640708516572085168080851700208517215085174660851764208517846085182290851863008519143084982100849815408498111084980440849798408497923084978540849781108497771084977200849768708497671084976990849778108497929084982030849844108498678084989350849909908499291084997060850015708500753084962010849612508496067084959810849590208495817084957080849563008495557084954700849541508495374084953560849539508495493084956650849581008495960084961440849626308496408084968630849735208497901087306950873129808731761087324500873308008733750087346140873523708735849087366600873727808737895087386970873928608739854087405750874111208741655087423850874293008743459087441530874468708745225085671150856594908565054085637240856251008561223085595640855837008557200085556470855446208553274085517150855054608549388085478840854677208545687085443120854328708542316085414260854078308539958084373830843738408437383084373820843738108437382084373900843739608437397084373850843738908437438084376330843786608438177084388280843936108439784084403500844083008441371084423590844339208444770084351420843514208435142084351420843514208435142084351430843514408435148084351590843517608435205084352830843542308435694084363050843681308437237084378030843825908438748084396480844062208441946084324920843249308432492084324880843248508432487084325050843251808432513084324590843242908432485084327810843299008433094084335760843411308434538084349560843532508435853084367240843756108438690084293510842935308429352084293410842933408429339084293790842940808429392084292510842915908429253084298530843017008430066084303950843097808431406084316390843190508432501084333600843403708434934,
    20000000200000002000000020000000200000002000000020000000200000002000000020000000200000002000000020000000200000002000000020000000200000002000000020000000200000002000000020000000200000002000000020000000200000002000000020000000200000002000000020000000200000002000000020000000200000002000000020000000200000002000000020000000200000002000000020000000200000002000000020000000200000002000000020000000200000002000000020000000200000002000000020000000200000002000000020000000200000002000000020000000200000002000000020000000200000002000000020000000200000002000000020000000200000002000000020000000200000002000000020000000200000002000000020000000200000002000000020000000200000002000000020000000200000002000000020000000200000002000000020000000200000002000000020000000200000002000000020000000200000002000000020000000200000002000000020000000200000002000000020000000200000002000000020000000200000002000000020000000200000002000000020000000200000002000000020000000200000002000000028328870283290102832925028329720283303602833195028338310283498502837146028425660284984502861061028821210290110502920148029407410295120202957620029628510296472202965093029656910296563502964009042089360420894504208960042089880420902004209093042093880420993404210991042138110421790904224832042396130425464204271055042902570430066004307257043122820431411504314847043156530431608204316246055426620554266705542678055427010554273105542798055430320554344805544278055466520555025005556415055697360558354505598965056176420562819905635148056403030564248505644145056464760564922005654044066344410663446806634526066346200663468106634759066350610663562106636686066394180664311306648900066605190667214306684990067006190670964206716011067219060672560206729481067360650674333206753694071572900715732107157389071575040715758707157676071578990715826007158950071608430716356907168031071773300718684607197420072101870721740207222384072269710722988107232894072376540724259207249398075633200756331207563295075632760756328107563321075634740756372207564176075653730756710407570049075766230758376407591916076015330760681907610500076137720761569607617601076205770762358207627600078688750786887807868886078689010786891907868951078690440786919407869476078702490787139607873381078778950788290507888730078957030789960907902389079048990790641007907945079103700791270107915659080193170801931908019324080193300801933408019343080193890801948408019681080202480802111108022623080261060803000308034562080401380804330208045552080477270804913708050571080527500805480108057394081753190817532108175324081753280817532708175328081753560817542408175565081759530817652308177516081798440818252608185757081898240819218108193884081955950819671808197839081995430820114508203135083067590830675908306759083067610830676408306771083067880830681108306863083070580830739508308008083094240831105808313106083158770831755808318795083199900832073708321482083226160832367808325003083638460836384508363845083638460836385008363857083638680836387908363902083640140836422808364638083656320836682608368370083705270837188108372893083738480837445808375091083759740837677908377808084073490840734908407349084073500840735108407355084073620840737208407395084074810840763308407916084085900840939208410453084121160841322708414009084147400841523508415764084164710841708408417878084421680844216808442167084421680844217008442174084421790844218008442187084422420844236108442574084430090844347508444139084453740844618508446709084473450844773408448020084486180844920208449837084598410845984108459843084598430845984108459836084598390845985608459892084599690846005408460181084604780846085408461396084622860846289308463347084638710846419908464472084649550846540108465916084777880847778808477788084777880847778908477791084777930847779308477794084778090847784508477917084780940847831808478654084792550847968008479996084803320848056608480811084811970848156508482026084918650849186508491865084918650849186508491864084918650849186808491874084918840849189408491916084920070849215708492373084926650849288508493104084933810849354808493681084939360849421508494579084975450849754508497545084975450849754608497546084975460849754708497548084975520849756008497579084976410849773308497869084980790849823108498360084985040849864508498840084991340849937808499669085012030850120308501203085012030850120308501204085012040850120408501204085012070850121208501224085012580850130608501373085014600850160508501800085018040850182608502049085023800850260308502852085030560850305608503056085030560850305608503055085030550850305608503058085030600850305908503058085030680850309308503120085031180850321808503457085037010850370408503621085038290850412708504378085033480850334808503348085033480850334808503348085033490850334908503349085033500850335108503355085033630850337208503388085034260850342908503453085037620850392108503872085040700850438408504642085029020850290208502902085029020850290208502902085029020850290208502902085029030850290308502904085029090850291508502925085029350850295608502973085029160850302908503318085033890850340208503652085009030850090308500903085009030850090308500902085009020850090308500905085009050850090208500897085008960850090708500927085009500850096808500984085009850850108708501279085012980850138708501697084990870849908708499087084990870849908708499087084990870849908708499087084990870849908708499088084990950849910908499133084991740849920608499237084993020849936108499406084994280849953408499774084969820849698208496981084969810849698208496983084969840849698108496976084969750849698608497008084970340849703808497032084970480849707408497103084971650849722408497287084974010849749308497595084944450849444508494445084944450849444508494446084944460849444508494443084944430849444708494457084944750849449008494500084944830849448108494515084945890849464808494702084947820849487808495017,
    20301030203010302030103020301030203010302030103020301030203010302030103020301030203010302030103020301030203010302030103020301030203010302030103020301030203010302030103020301030203010302030103020301030203010302030103020301030203010302030103020301030203010302030103020301030203010302030103020301030203010302030103020301030203010302030103020301030203010302030103020301030203010302030103020301030203010302030103020301030203010302030103020301030203010302030103020301030203010302030103020301030203010302030103020301030203010302030103020301030203010302030103020301030203010302030103020301030203010302030103020301030203010302045691022397570232607802185775020301030203010302030103020301030203010302030103020301030203010302030103020301030203010302030103020301030203010302030103024719960252261202567644025946600262149302690829028576030292891402831800023510700203010302030103020301030203010302030103020301030203010302030103020301030203010302030103020301030203010302030103032437800328858603331780033658630339319503445429035601670361424303566890032916430302031902808383027374770278802402851611028764740288551802902122029224500293805502955372029805730300147803024417037913800383206303873952039130490394073603980836040586520410050104088453039590110382668303724738036989530373342703774133037959850380702603821928038407960385537703871173038939580391277603933352049847560498486004985003049853480498610304987667049916590499695505005104050220840504101705064475050903740510384905115749051330970514608605158510051751440518810505201617052208290523667805253920065209760656264306604867066425170667028106714434068043050685068606828785066561640648432806385183063846810640253606427191064450510645473706466551064814010649239806503748065195040653221306545863069181760691821606918258069183040691837106918506069189530691986806921657069258500693054806940684072711420714409606989483069951470701530307021394070336880704436707054288070682580707963007091696073765490737656307376579073765970737661907376660073767960737708807377672073791130738094507387228074982500745594907414818074224990743463907441505074521810746106807469844074820070749188507502474077494700776451107789610078204440784540607884432079639370800769307996257078663610776358507741894077426930774671507753872077612370776620407772483077808670778749507794601078045540781266907821547079145400791453507914523079145020791449407914510079145860791469107914841079151460791564907917615079233500792519307926343079309990793563507940134079467330795223207958103079665780797360907981416080936030809360508093606080936060809361208093637080937300809387508094094080944430809479308095341080966730809830608100485081038330810667808109875081146160811866608123142081297270813542308141941082413210824132208241321082413150824131508241323082413580824140208241463082415960824180008242159082429530824382508244946082468260824854308250502082534880825614008259152082637070826785108272782083062280830622808306228083062280830622908306232083062410830625708306289083063750830651308306756083073020830790208308658083099040831114308312643083149410831692708319198083228040832608108330065083556210835562208355620083556150835561408355621083556490835567708355703083557380835580408355947083563130835673608357282083581990835910108360194083619080836341408365174083680480837070008373977083950300839502908395030083950330839503508395031083950210839502808395069083951960839533208395487083957220839598108396368083970830839765308398310083995520840070808402043084042060840628308408956084154840841548308415486084154980841550108415490084154490841543308415467084156220841578808415956084161520841633108416594084171020841753608418074084191160842005808421134084229430842473408427052084369810843698008436980084369820843698208436980084369740843697508436989084370370843709208437158084372670843738808437570084379360843830808438781084395960844031708441154084425790844401908445906084547970845479708454797084547980845479808454798084547980845479808454799084548040845480908454818084548460845491908455079084554400845572008456016084565680845711708457774084588500845992708461390084619130846191208461912084619120846191208461913084619140846191508461915084619150846192108461938084619890846205508462154084623570846260108462917084634000846381908464339084652890846624108467530084671010846710108467101084671010846710108467101084671010846710108467100084670990846710208467111084671420846719708467295084675050846770808467956084683780846873208469164084699920847079808471898084720660847206608472066084720680847206808472066084720590847205708472066084720990847213008472155084721720847220008472273084724580847261808472808084731670847347808473837084744860847517308476111084703730847037308470373084703740847037508470373084703680847036508470370084703900847040808470420084704190847040808470394084704030847051608470723084710750847142008471838084725250847325508474246084654390846544008465439084654390846543808465439084654420846544308465441084654320846543008465440084654800846552108465563084656320846575808465943084662200846650508466872084674850846810708468992084632430846324308463243084632420846324208463243084632460846324808463249084632470846325808463291084633890846350308463653084639110846415908464466084649700846538908465840084665340846718708468033084626860846268608462686084626850846268508462686084626860846268508462681084626700846265708462640084626080846257308462526084624580846245808462509084626270846278308463035084635440846402408464678084564790845647908456479084564800845648008456479084564770845647608456479084564880845649108456483084564540845645308456506084566650845674508456827084570950845732808457596084581200845857208459183084525140845251408452514084525140845251408452514084525140845251408452514084525150845251508452513084525100845251508452534084525910845265608452759084529940845323408453506084539200845435708454970,
    20000000200000002000000020000000200000002000000020000000200000002000000020000000200000002000000020000000200000002000000020000000200000002000000020000000200000002000000020000000200000002000000020000000200000002000000020000000200000002000000020000000200000002000000020000000200000002000000020000000200000002000000020000000200000002000000020000000200000002000000020000000200000002000000020000000200000002000000020000000200000002000000020000000200000002000000020000000200000002000000020000000200000002000000020000000200000002000000020000000200000002000000020000000200000002000000020000000200000002000000020000000200000002000000020000000200000002000000020000000200000002000000020000000200000002000000020000000200000002000000020000000200000002000000020000000200000002000000020000000200000002000000020000000200000002000000020000000200000002000000020000000200000002000000020000000200000002000000020000000200000002000000020000000200000002000000020000000200000002000000020000000200000002000000020000000200000002000000020000000200000002000000020000000200000002000000020000000200000002000000020000000200000002000000020000000200000002000000020000000200000002000000020000000200000002000000020000000200000002000000020000000200000002000000020000000200000002000000020000000200000002000000020000000200000002000000020000000200000002000000020000000200000002000000020000000200000002000000020000000200000002000000020000000200000002000000020000000200000002000000020000000200000002000000020000000200000002000000020000000200000002000000020000000200000002000000021793810217938102179381021793810217938102179381021793810217938102179381021793810217938102179381021793810217938102179381021793810217938102179381021793810217938102179381021793810217938102179381022062600220626002206260022062600220626002206260022062600220626002206260022062600220626002206260022062600220626002206260022062600220626002206260022062600220626002206260022062600220626002206260035131010351310103513101035131010351310103513101035131010351310103513101035131010351310103513101035131010351310103513101035131010351310103513101035131010351310103513101035131020351310203513102051085780510857805108578051085780510857805108578051085780510857805108578051085780510857805108578051085780510857705108577051085770510857705108576051085760510857605108579051085860510858805108586058863010588630105886301058863010588630105886301058863010588630105886301058863010588630105886301058863010588630205886302058863030588630305886305058863060588630605886327058863760588638805886386066595630665956306659563066595630665956406659564066595630665956306659563066595630665956506659569066595790665959106659608066596410665967406659715066597670665979806659855066599710666006706660217073235910732359107323592073235920732359107323591073235920732359307323594073235920732358707323584073235930732361607323652073237200732378407323851073239470732404107324168073243990732462007324892076298730762987307629873076298720762987107629870076298730762987807629881076298710762985207629842076298790762996207630056076301180763010607630187076303790763039107630426076306740763099107631310078550200785501807855015078550110785500907855009078550110785501307855014078550070785499507854988078550050785504907855107078551760785521207855273078554120785554407855697078559210785610907856387080257750802578808025818080258640802589508025919080259430802595608025966080259780802598908026003080260240802604408026073080261340802620508026311080264570802652908026679080270500802737308027629081136840811367608113670081136980811376208113844081139310811395508113950081139190811389708113891081139320811400708114092081141560811415708114222081144280811457908114706081149410811526308115567082052290820522708205222082052190820522408205243082052980820536508205433082054850820547808205459082054830820556808205670082057350820570508205744082059500820612008206249082063990820657108206791082815480828154708281547082815470828154808281549082815490828154708281544082815390828153608281535082815400828155108281570082816060828164508281706082818160828190808282013082821750828231308282480083151990831519908315199083151990831519908315199083151990831519908315199083151990831520108315202083152000831519608315194083152030831521308315182083152130831542808315535083155230831570608315930083412320834123108341231083412310834123208341232083412310834122908341228083412330834124208341247083412310834119908341180083412400834135508341392083413830834151108341581083415580834164608341808083623750836237508362374083623730836237208362373083623740836237508362376083623740836237108362369083623760836239008362400083623850836235708362386083624750836247208362480083625990836275308362858083729940837299308372992083729900837298908372990083729910837299308372994083729920837298608372983083729940837301908373047083730680837306208373055083730750837311708373159083732330837334008373446083834100838342108383443083834670838347008383464083834530838344908383448083834490838344808383445083834380838343108383433083834680838351508383522083835030838355808383610083836400838368408383747083908230839082108390818083908200839083208390849083908750839089308390911083909360839095508390973083909910839099808390999083909900839098308391003083910410839103608391065083911520839118508391228083934670839346808393470083934660839345708393452083934680839350708393558083936200839364908393663083936680839366808393668083936680839366908393665083936690839369908393734083937700839379908393843083950580839505908395060083950580839505208395048083950580839508408395118083951620839518408395198083952080839521208395212083952070839520308395221083952570839525608395265083953050839533308395376083950210839502208395023083950210839501708395016083950270839505108395082083951220839514308395157083951640839516408395162083951640839516908395164083951610839519308395227083952620839529508395319,
    20000000200000002000000020000000200000002000000020000000200000002000000020000000200000002000000020000000200000002000000020000000200000002000000020000000200000002000000020000000200000002000000020000000200000002000000020000000200000002000000020000000200000002000000020000000200000002000000020000000200000002000000020000000200000002000000020000000200000002000000020000000200000002000000020000000200000002000000020000000200000002000000020000000200000002000000020000000200000002000000020000000200000002000000020000000200000002000000020000000200000002000000020000000200000002000000020000000200000002000000020000000200000002000000020000000200000002000000020000000200000002000000020000000200000002000000020000000200000002000000020000000200000002000000020000000200000002000000020000000200000002000000020000000200000002000000020000000200000002000000020000000200000002000000020000000200000002000000020000000200000002000000020000000200000002000000020000000200000002000000020000000200000002000000020000000200000002000000020000000200000002000000020000000200000002000000020000000200000002000000020000000200000002000000020000000200000002000000020000000200000002000000020000000200000002000000020000000200000002000000020000000200000002000000020000000200000002000000020000000200000002000000020000000200000002000000020000000200000002000000020000000200000002000000020000000200000002000000020000000200000002000000020000000200000002000000020000000200000002000000020000000200000002000000020000000200000002000000020000000200000002000000020000000200000002000000022939770229397702294012022940580229397702293756022936150229397002294921022966730229793602298851022996500230012902300627023012910230174102302110023025120230279402303078023034220230366702303931021186060211860602118501021183610211860602119274021196990211862602115756021104710210665902103896021014850210004102098536020965330209517602094062020928470209199802091140020901020208936202088566024977190249771902498180024987890249771902494801024929480249764102510190025333100255000802562147025728060257924402585975025949620260107402606116026116440261551402619418026241540262753802631169041145700411457004115087041157700411457004111311041093620411489004129474041568210417749304194051042116500422460604239166042597240427472804288231043043000431580104327141043414600435201504362885053358570533585705335650053353770533585705337178053381440533632305331243053223910531698005314676053159220531917305323673053308950533691605343106053513250535740105363257053710570537705805383040064131290641312906413199064132900641312906412689064123840641303106414803064179580642002306421175064215010642119206420670064198030641908706418381064175530641708706416810064166520641669606416959071296650712966507129647071296220712966507129787071299280712988207129626071291390712883607128719071288680712920007129715071307070713172207132972071348800713651407138364071411100714348907146236074682700746827007468267074682630746827007468292074683490746841407468499074686280746872607468822074689910746919707469510074701660747090407471880074734110747471607476183074784480748047107482801077357490773574907735748077357480773574907735750077357420773571807735675077356220773561507735657077357760773589807736047077363740773680307737425077383620773914407740077077415590774285907744325079423440794234407942344079423450794234407942343079423440794234907942359079423770794239007942403079424420794250707942620079428700794315607943543079442230794482207945451079464570794736007948333080530430805304308053044080530440805304308053040080530380805304108053051080530660805307108053069080530800805312408053215080534070805360308053847080543070805471408055099080557410805631908056888081650070816500708165007081650070816500708165006081650060816500808165011081650120816500108164980081649650816499108165065081652100816532408165429081656210816583308166092081664360816676008167239082525000825250008252500082525000825250008252501082525010825250008252498082524960825250108252512082525190825250308252463082524320825247608252600082527590825287908253067082533700825363208253942082878770828787708287878082878780828787708287877082878760828787708287881082878830828787708287864082878560828787708287933082880420828812908288200082882330828828908288465082886730828879008288992083131490831314908313149083131490831314908313147083131460831314908313155083131590831314908313126083131130831314908313242083133840831344108313420083133910831349308313745083139030831390208314052083318380833183808331838083318380833183808331838083318390833183808331836083318350833183808331844083318480833183808331813083317890833181008331878083319690833204408332163083323360833247708332654083404810834048108340481083404810834048108340482083404820834048108340479083404780834048108340489083404940834048108340451083404340834048508340598083406430834064308340756083408780834097308341205083482850834828508348285083482850834828508348284083482840834828508348287083482880834828508348278083482740834828508348311083483400834832708348285083483550834847508348536083486330834876108348911083531760835317608353176083531760835317608353176083531750835317608353178083531790835317608353169083531650835317608353205083532470835326008353254083533130835338308353406083535100835363708353713083546650835466508354665083546650835466508354665083546650835466508354664083546640835466508354665083546660835466508354661083546490835463508354622083546780835477108354862083549550835501308355083083550810835508108355081083550810835508108355081083550810835508108355083083550830835508108355076083550740835508108355101083551310835514408355143083551590835520708355287083553960835546408355531083546780835467808354678083546790835467808354678083546780835467808354680083546810835467808354673083546700835467808354700083547330835474508354741083547660835480708354841083549140835498808355057]

/-- `json_database/acd96_ne.json`. -/
def acd96_ne : PackedFile where
  temperature := [9930123, 9947732, 9969917, 9984530, 10000020, 10017629, 10030123, 10047732, 10069917, 10084530, 10100020, 10117629, 10130123, 10147732, 10169917, 10184530, 10200020, 10217629, 10230123, 10247732, 10269917, 10284530, 10300020, 10317629, 10330123, 10347732, 10369917, 10384530, 10400020, 10417629]
  density := [11369897, 11400000, 11430103, 11469897, 11500000, 11530103, 11569897, 11600000, 11630103, 11669897, 11700000, 11730103, 11769897, 11800000, 11830103, 11869897, 11900000, 11930103, 11969897, 12000000, 12030103, 12069897, 12100000, 12130103]
  levels := [
    81794230818190308184695081888990819258408196843082034150820917608215690082253320823362008243161082579780827104908285927083087870832864108350673083830040840957408437424084753820850498208535085081603240816207408164133081672640816999308173165081781540818251008187330081946750820112908208458082198230822990108241406082591560827484108292794083203890834420608370163084065890843577108465874081370330813813308139488081415510814337208145561081489260815187208155273081603450816473708169851081778560818494008193014082055550821695308230560082526430827305208296743083313130835998808390091081218810812270708123711081251930812652808128220081307300813290308135540081394960814288908146856081530380815849908164780081746840818390908195267082146170823345908256069082895730831797908348082081055610810617208106899081080210810900708110151081120150811367708115505081183780812097508123934081284450813243908137117081447360815217208161764081789170819642008218067082502910827833008308433080874080808778408088226080889030808952708090294080914700809248908093668080954880809712308099059081020720810473608107867081133390811920408127295081424890815863008179078082094040823686608266969080727710807309308073443080739860807449708075111080760140807678108077682080790640808026908081653080838130808573908088025080923790809742308104645081186150813381508153277081819380820884708238950080669960806641708065895080651520806459508064167080635960806314608062799080625060806237608062294080623310806258108063191080653040806874608074553080865380810023208118416081450070817118708201290081171700811450208111728081079210810491908101774080973060809376408090214080854370808171008077886080727290806882508065083080611390805962008059977080640900807173408084420081045250812850108158604081582060815519108151959081474140814378208139953081344430812995908125309081189150811378708108312081007160809479008088772080811930807625308072377080689880806980508075396080858320810605108136154081829670817976608176307081714930816767308163609081577280815290908147854081408630813521508129100081204860811370608106774080976330809120208085525080781910807461208074607080740220808899108119092081953000819207408188563081836870817981308175659081696490816470608159451081520480814608708139787081308960812382008116579081069440809999508093551080843440807865608075643080661420807622108106319081961370819291208189435081845230818058408176432081704160816542108160099081526460814664908140264081313120812423708116974081072920810028608093711080839780807764408073654080604450806838008098476081896760818650208183029081781570817427008170120081640930815909408153760081463300814036108133964081250410811804608110878081013390809443008087879080778850807117708066555080502610805632908086420081731500817006308166668081618500815803408154061081481950814327908138134081309480812514008118973081103920810372308097013080880900808161908075516080658430805917708054396080361330804089508070982081591360815614308152836081481090814434808140445081347870813011108125213081183210811275708106919080988570809263008086423080782340807233008066756080576510805128808046624080276310803182808061912081426610813986308136672081321020812850008124777081194870811511308110423081039360809882808093474080861510808056708075048080678700806273408057825080495150804364008039229080199550802382108053904081223590811978808116875081126330810925508105788081008460809679508092561080867270808213308077384080709880806618708061520080555870805139108047308080399740803466808030542080112770801499408045077081088830810646308103746080998450809675608093581080890860808544208081662080764620807241308068326080629280805890108054973080499920804652608043192080367820803204808028352080093560801299408043077080856110808331508080786080771030807415608071174080669880806359108060057080552350805155008047904080431060803954708036138080317040802856308025617080198030801548208012081079933710799703308027117080523340805003808047508080438250804087908037896080337110803031308026780080219570801827208014627080098280800627008002860079984260799528507992339079865260798220407978804079600940796375707993842080304140802811808025589080219060801895908015977080117910800839408004860080000380799635307992707079879090798435007980941079765070797336607970420079646060796028507956884079381750794183807971924080071790800488308002354079986710799572407992742079885560798515907981625079768030797311807969472079646740796111507957706079532720795013107947185079413710793705007933650079149400791860407948691079807660797847007975940079722570796931107966328079621430795874507955212079503890794670407943059079382600793470207931292079268580792371707920771079149580791063707907236078885270789219207922280079620250795972907957199079535160795057007947587079434020794000407936471079316480792796307924318079195190791596107912551079081170790497607902030078962170789189607888495078697870787345207903541079356110793331507930786079271030792415607921174079169880791359107910057079052350790155007897904078931060788954707886138078817040787856307875617078698040786548207862082078433740784703907877129079023340790003807897508078938250789087907887896078837110788031307876780078719570786827207864627078598280785627007852860078484260784528507842339078365260783220507828805078100970781376307843854078804140787811807875589078719060786895907865977078617910785839407854860078500380784635307842707078379090783435007830941078265070782336607820420078146070781028507806886077881770779184407821936078571790785488307852354078486710784572407842742078385560783515907831625078268030782311807819472078146740781111507807706078032720780013107797185077913720778705107783651077649430776861007798702078307660782847007825940078222570781931107816328078121430780874507805212078003890779670407793059077882600778470207781292077768580777371707770771077649580776063707757237077385300774219707772290,
    82547210825645308258418082609220826306808266950082737460827892008284828082940770830215108311557083269230834104508356835083804310840089208423996084586400848775708519154085620810859477608629047082422290824366508245307082475360824950708252739082582870826265508267675082754210828222608290515083023770831165908323572083432940836018708379305084083830843303808459513084976430852857308559440082250380822590208226868082285180823018108232144082353530823835808241772082469180825149508257000082657710827352608282480082965190830898908323123083448630836385008384711084151850844024108466155082143070821490808215563082166870821784208219216082214180822344908225815082295500823296108237028082435340824936408256051082665100827599108287152083045220831963608336704083623280838387008407076082030180820347708203974082047600820549308206365082079160820946208211180082137160821601608218874082234800822754008232282082398730824680708254944082678580827943908292625083127780833026208349670081903670819073808191082081916050819210408192693081937060819468908195773081974300819897608200834082038750820664908209785082148660821968808225242082340540824211708251269082655200827844108293397081814060818180408182120081825310818291008183370081841170818478408185553081867890818793708189307081915490819359608195914081996600820321608207368082139390821990408226783082376960824777108259798081724020817252908172605081726910817278408172937081731940817341608173746081743640817494508175659081768890817806908179446081816540818374008186284081903470819398508198316082053230821195808220478081929480819089408189141081871340818573608184362081825050818110608179797081781990817706308176005081747320817387808173165081725210817228908172252081726240817335308174527081768950817959308183573082183400821488108211833082084730820632508204102082009110819844108195936081927210819043408188118081849660818259508180314081774210817529108173244081708910816952808168523081677400816768108168336082374080823329808229702082256500822294808220315082165950821356108210467082064410820347308200474081962380819283108189516081851860818175008178159081737110817088508168322081650050816241408159748082472480824286208238976082345910823167108228802082248600822177708218554082142600821106708207697082029210819919208195479081904180818628508181914081764720817297008169672081648860816046808155131082479010824348008239541082350970823216108229287082253120822217108218946082146800821144208208032082032540819950808195668081903360818599408181369081756630817208008168672081634110815819708151600082423250823805208234222082298770822698108224157082202620821717608214004082096650820631008203013081983980819450908190516081850110818045708175508081694990816592008162481081568980815110808143488082280620822442308220979082168710821413908211556082078380820461908201317081970530819384508190443081855750818165708177552081717380816686408161425081547670815096608147556081420130813598008127911082149630821173108208644082050080820257208199931081960890819307708189873081854900818216608178741081738550816983708165668081597000815455708148838081418950813795508134454081289430812302908114961081989850819615808193342081898100818734708184835081812010817817808174977081706330816731408163888081590170815500108150762081446900813948108133528081262490812228508118882081135160810773008100013081788860817632708173686081702670816783908165374081618720815896908155804081514460814818708144872081401030813609908131926081259520812074208114767081073040810314708099869080950380808973008082705081635590816111608158576081552430815283708150406081469970814419208141120081368130813353608130248081256480812182308117748081118380810671808100837080933750808915008085980080815830807672908070268081409520813866208136214081329900813070708128406081251440812240808119369081152300811218908108964081044080810080808096929080912360808634908080726080734690806928208066253080623510805815208052674081116040810952308107393081044470810213208099892080968560809429008091510080876580808471508081753080776710807433608070760080656670806137508056345080495980804557008042812080397190803651808032340080926980809071408088541080855510808336708081273080784320807605308073469080698820806713208064318080604470805738608054201080496060804563408041132080351090803136008028830080262120802357708020105080729810807114808069166080663870806428908062334080597560805758408055232080519610804944208046902080435160804085808037949080339150803072508026908080215160801819308016138080141280801195708009259080466460804481808042839080400630803796408036008080334310803126008028909080256390802312008020580080171970801454108011631080075980800441408000600079952050799188207989830079878280798566107982974080279220802609408024115080213380801923908017283080147050801253308010181080069090800438908001848079984640799580607992894079888590798567307981856079764570797313207971079079690760796690907964222080015250799969907997719079949420799284207990885079883060798613307983780079805080797798607975444079720580796939907966486079624490795926107955441079500380794671007944656079426520794048507937799079682630796643707964458079616800795957907957622079550430795286907950515079472410794471907942176079387890793612907933214079291740792598507922163079167570791342707911371079093670790720007904514079463510794452607942546079397680793766707935710079331300793095607928602079253280792280507920262079168740791421307911297079072570790406707900244078948360789150507889449078874450788527807882591079231220792129707919318079165390791443907912481079099010790772607905372079020970789957407897031078936420789098107888065078840240788083307877009078716000786826807866212078642080786204007859354078967140789489007892910078901320788803007886073078834920788131807878963078756880787316507870621078672320786457007861654078576120785442107850596078451860784185407839797078377930783562507832939,
    83411380834132208341408083413660834112908340630083398550834039208341127083430780834732808352880083597660836588908373689083868000839926208414208084380570845941608483893085213330855308308587203083270580832734408327654083281370832851408328852083293620833038608331675083342030833846008344018083509130835704208364850083779680839044108405394084292440845060808475087085125270854427708578398083098780830994508310211083110760831207908313297083150980831653508318300083217890832573608329916083341230833887508345853083576220836884208382242084034410842257208444627084784090850744208538752082986750829892908299313083001170830091908301836083031920830445708306099083091010831195108315017083192520832378908329565083379130834554008355329083721140838758508405557084334220845741908484064082851120828545408285853082864670828699408287573082884670828941908290647082925960829448008296876083009290830461608308881083155410832165608329271083422970835432708368449083908970841059908432738082692230826930008269428082697360827006208270448082710450827161108272360082737390827496608276361082786640828082108283473082880470829239908297618083061510831419508323916083397530835427508371077082579950825788108257810082578710825802208258234082585990825902208259600082605460826135308262304082639710826552308267379082705070827345308277005082829120828858108295547083071550831810108331142082444500824375108243113082425820824239908242345082424140824260408242880082432650824360908244064082448830824563908246584082483210824997308251915082550720825816608262070082687480827532408283520082432340824092908238692082362830823491508233893082329590823238708231871082313120823090508230544082302850823015008230094082303220823058108230909082316720823256808233794082360800823854508241937082515770824793308244303082401810823771308235793082339560823279008231674082302870822927708228317082271830822641608225769082251550822469008224214082237830822366208223717082240600822466608225807082593090825471308250053082446540824136608238772082362230823463608233113082311090822968208228306082265260822532408224232082228220822180608220867082197470821891408218084082170640821632008215618082626990825772208252614082466090824290608239943082369840823522908233626082314330822973808228114082262240822484108223469082217870822049508219212082177430821661508215379082136170821203408210112082621870825726908252166082460740824227408239219082361750823442908232872082306830822899808227378082253530822395408222628082208570821954308218279082166780821544908214144082121970821033608207970082584010825376608248899082429830823926308236297082333930823165808230031082278050822617608224592082224780822103308219688082178190821647508215215082135130821219808210819082086850820655008203767082493710824534508241096082358460823241108229491082263620822453708222889082204130821854508216766082143640821261208210953082087860820715008205548082034970820194508200298081977400819523108192029082407930823733108233642082289310822571008222849082196060821755508215656082129820821088208208767082059870820395608201973081993540819737808195441081929670819106908189069081861100818330708179822082291170822619508223049082188670821587208213106082098400820762908205513082026180820028908197880081947360819240808190086081869870818466508182372081793570817706408174707081712940816814108164356082130400821055408207896082042930820159608198962081956290819334808191190081881870818577208183275081799330817743208174939081715760816903308166536081632870816075508158161081546400815148508147723081998570819761008195212081919100818937108186819081834930818120708179057081760540817364508171166081678440816531508162780081594340815692308154407081510210814849008145965081424120813929408135700081790330817702908174886081718530816946108167023081638140816154108159371081564310815412708151721081483250814575108143255081400340813757108135041081316330812916708126738081232230812021908116863081510850814921208147201081443300814206608139792081368440813463808132477081297380812755908125216081219880811957408117214081141100811172208109302081061290810379108101468080982540809556308092501081322220813049608128664081260500812394508121751081187820811663808114617081120070810993008107727081047050810243008100195080972700809503308092781080898490808767708085538080827200808049508078108081124580811086708109188081067990810486108102810080999780809792808096026080936250809170108089653080869130808484208082794080801520807812508076079080734510807153308069658080672050806533808063417080902300808878708087273080851300808339108081548080789890807709908075324080731330807148608069750080672680806542508063658080613340805960208057891080556410805397808052356080502650804872108047141080761660807486408073501080715700807001608068392080661730806450708062911080609510805949708057998080559280805435708052798080507490804926008047828080459550804456708043217080414960804022208038940080509180804964608048312080464250804491108043339080412060803959408038040080361400803472108033260080313000802979908028281080262820802484408023471080216800802035408019070080174300801620708014982080176500801637708015042080131520801163608010062080079260800631208004755080028530800143007999967079980040799649907994979079929760799153507990159079883640798703607985748079841040798287807981649079957360799446207993126079912350798971807988143079860050798439007982832079809280797950407978039079760730797456807973045079710410796959807968220079664230796509307963804079621570796092907959698079725050797123107969894079680020796648407964908079627680796115207959593079576870795626207954795079528280795132007949796079477900794634607944966079431670794183507940544079388950793766507936432079460970794482207943484079415900794007107938494079363530793473507933174079312670792984007928373079264030792489407923368079213600791991407918533079167310791539807914105079124540791122107909986,
    83750310837539908375698083759860837619508376467083770410837774708378783083791750837930908381190083844320838751408391251083974090840323808410639084236070843616108451499084766560849969008526329083650960836541908365719083660900836639908366781083674750836821508369199083699270837049508372376083756180837870008382437083885940839442408401825084147920842734608442684084678400849087508517514083525470835281408353117083535900835402408354543083553890835617108357094083582420835935108361232083644740836755508371292083774480838327708390677084036440841619708431534084566900847972408506363083442050834443608344741083452810834579608346405083473480834815808349043083504660835193208353809083570330836010708363840083699900837581308383206083961620840870908424037084491750847219408498818083349670833518808335494083360480833657408337182083380990833886008339668083412660834328408344530083448750834660908349558083545340835933408365384083757890838578308397994084182270843709508459100083217460832195008322186083225330832282008323126083235900832403708324615083255750832644008327754083303090833245608334956083391130834300808348122083561030836153708369106083848130839938808416354083122800831238108312508083127250831293208313180083135740831392608314326083149800831565008316525083180380831945408321140083238930832652308329908083357810834128708348163083599570837106308384387083004870830049408300511083005510830060308300680083008330830099408301199083015460830187708302297083030330830375708304651083061570830763108309538083128820831609908320069083268600833355308341946082977440829719508296641082959020829533008294738082939470829339408292923082924110829202508291618082910550829065608290341082901900829038908290845082918190829289808294362082970920829996108303723083061450830501808303852083022530830098708299661082978480829651408295279082937930829266408291454082896700828822708286874082854260828460208283989082834280828316908283161082836960828458608286056083162420831474208313163083109360830911708307158083044120830235908300451082981180829627208294240082912200828878308286405082835730828167208279957082778670827634408274969082734610827253508271988083223890832066608318853083163080831421108311911083086100830609308303710083007640829846108295910082920570828891008285729082817730827906908276497082731400827060608268075082648130826247208260251083226680832092208319051083163750831417308311794083084340830586008303368083002250829780708295127082910210828764108284199082798790827688908274000082701340826719108264235082602800825727708254313083182460831655508314746083121600831001408307668083043020830169608299158082959590829353308290870082868000828342208279926082754390827230608269271082652170826211508258932082545670825119408247764083060530830446708302778083003770829837808296173082929700829045308287965082848040828245408279923082760790827285208269446082649840826187708258911082549690825191508248745082443790824096508237350082951930829366908292043082897240828779008285651082825340828007808277643082745390827221908269743082660350826292008259613082552590825222208249290082453450824233808239244082349410823153608227853082819370828044108278836082765500827466008272598082696050826720008264732082615620825936708257033082533990825036108247178082429910823999908237071082331030823002008226945082228320821944408215732082649100826345908261933082597830825797908255950082529290825050708248075082449700824271408240357082368710823397608230933082268570822384708220920082170750821409108211042082068950820358308199957082516090825017608248671082465660824480208242811082398280823742708235018082319180822961708227288082239780822115208218144082141380821120608208335082044980820150908198491081944420819118808187617082311650822973408228232082261520822444808222576082198110821753008215114082119130820969708207449082041470820144608198601081947460819188608189062081853100818242608179467081754320817229508168954082032410820194408200554081985690819691608195095081924070819018508187824081846610818244108180275081772340817466908171917081681910816546508162794081591880815630508153440081497780814689708143723081838610818258408181214081792630817764808175884081732970817115908168876081657690816353308161379081584700815604608153416081497910814712708144517081409950813819108135446081319490812911908126069081627050816141808160055081581600815660808154910081524100815034408148145081451320814290408140770081379370813553208132973081295250812690208124334081209990811839108115726081121920810950708106670081382100813703408135759081339230813240008130741081283190812630808124142081211670811902208116964081142150811196108109532081061650810365008101157080978520809535108092817080893950808677108084075081206230811945408118209081164590811502108113451081111340810918208107045081040730810193808099923080972690809505808092693080894470808696208084516080813460807891408076439080731410807066208068085080958870809477408093592080919380809057408089075080868470808497208082933080800830807796408075961080734150807135508069153080660720806366208061280080582390805594908053624080505450804828908045902080638700806279308061640080600130805868608057256080551650805337808051369080485270804650908044548080419540804003008037961080349170803259708030329080274180802525308023021080199850801778408015534080419940804091608039761080381320803680308035372080332800803149208029481080266370802461708022654080200590801813308016061080130150801069308008422080055070800333908001104079980650799586107993609080187980801772008016564080149320801360108012170080100770800828708006276080034290800140707999443079968460799491807992842079897950798747207985198079822790798010907977870079748280797262207970368079924240799134507990187079885530798722107985789079836940798190407979891079770420797501807973052079704540796852307966445079633960796107207958795079558720795369907951458079484120794620407943949,
    83970220839757308398813084009060840230608403369084047200840608608407876084105620841255808414565084179500842130808425417084320290843808608445710084595080847019508481635085075220853633008571933083865780838711808388195083899790839120208392181083934570839470408396289083986420840039908402186084052170840821508411872084177640842315708429884084419330845169708462552084857780851103508542256083734360837396408374836083762380837724208378118083793020838040208381736083836800838514408386661083892610839182008394928083999480840454208410192084201490842882508439003084590850848011008506041083647900836530908366050083672040836806708368875083700000837100608372177083738600837513608376482083788060838108708383848083883200839241508397394084060590841407508423857084420490846053108483267083556340835614408356746083576420835835808359097083601600836106808362071083634820836456508365734083677760836977208372179083760950837968708383996083913840839876308408176084245750844066808460446083477420834809408348470083490310834952408350086083509230835161808352357083533800835417508355060083566490835821908360118083632090836607508369529083754040838134508389010084022900841513608430882083457740834570208345829083461680834643408346677083471170834766008348403083494670835014408350729083518550835317508354744083565730835848308361493083670110837107608375398083855560839629108409137083363920833635508336419083365840833670608336806083369580833713708337386083377870833811008338450083390180833966208340511083418160834318208345059083483010835133708355158083623490836950608378284083320030833163308331243083307270833036108330020083295800832922808328865083284410832821008328012083275760832715008326695083260940832597108326324083273910832859008330215083333650833664708340855083389680833812708337240083360010833501908334005083326280833156708330500083291120832808408327021083253590832386808322196083199300831864808317897083174010831746708317940083189770832033908322431083495830834829008346902083449260834333108341654083393190833746408335552083330130833111608329175083262240832352808320446083162880831362308311545083093900830816108307257083064300830618208306391083557730835417908352499083501300834821108346172083432680834089608338386083349540833232308329652083258350832227908318054083123500830849108305209083016790829936508297218082947260829312208291801083554190835376708351996083494780834744608345295083422010833962008336845083330540833020708327348083231770831939108314992083088850830466008301027082969600829421308291622082884240828620608284183083502320834857608346805083442910834226008340098083369500833427708331381083274850832468208321915083176370831380608309512083034920829929708295686082915530828868208285896082822770827963608277093083378740833637108334755083324180833048408328390083253390832279008320057083163310831354308310786083069320830354708299671082943210829054008287189082833620828066908277991082744690827172408268834083266170832516208323590083213390831951108317562083147150831229408309656083060380830335308300727082970640829391308290374082854720828191708278700082750720827249108269860082664040826361108260534083122170831085408309359083072030830545408303594083008910829860008296101082926430829003208287472082840460828117208277936082733740827000908266934082633830826084608258264082547620825188208248665082934010829211808290695082886390828698408285239082827060828054908278177082748400827226108269729082665210826387708260886082567500825362808250659082472040824468908242042082383160823529808231965082787940827754108276157082741660827257108270895082684580826637408264069082608020825825908255761082526570825016408247344082433270824033108237521082340530823148708228838082250460822190208218419082567270825555108254238082523340825080508249194082468480824483308242603082394640823705508234692082316640822927408226655082228520821995808217206082137190821112608208469082046200820141108197871082274960822639408225137082232810822176608220166082178730821596608213894082109240820852008206089082031300820087008198409081949430819222508189504081860570818347508180806081770340817383908170240082073270820625308205035082032530820181808200313081981420819630308194270081913280818894808186551081836530818149408179159081757370817304608170405081670150816441808161726081580430815495308151418081856700818463908183455081817100818030308178830081767110817492008172943081700810816775908165407081625320816043908158224081548960815223608149616081462410814368008141075081375510813448308130907081607400815973308158572081568680815550808154099081520910815040308148538081458020814353108141192081383130813614508133860081307870812838308125846081223050811974608117339081138570811088908107601081429010814195008140877081392790813794608136510081344650813281008131043081284430812620308123818081208780811877708116643081136330811119008108651081053150810286908100437080969690809410708090971081177270811680908115744081141560811286008111495081095480810793608106180081036100810145708099201080963580809428808092184080892380808690508084511080812550807883108076466080732090807048208067437080859830808511708084103080825860808134908080050080782060807668708075037080726080807055108068362080655410806353408061588080588800805660108054178080511300804888308046598080435290804101808038221080646520806382508062844080613540806011708058808080569660805548708053910080515760804954408047356080446050804259308040574080379390803575908033383080303970802822108026016080230200802053008017764080414170804059008039609080381190803688208035573080337310803225208030675080283410802631008024122080213720801936008017343080147110801253108010156080071690800499208002786079997890799729707994530080150040801417708013196080117050801046908009159080073170800583808004262080019280799989707997709079949590799294907990933079883030798612407983749079807620797858407976377079733800797088607968118,
    83829010838400008385070083865500838774508388995083907190839208808393536083956020839725008398914084010880840292308405144084086710841186708415608084214230842683008433610084454730845716808471670083740970837519608376265083777450837894008380191083819140838328308384732083867980838844508390110083922840839411808396339083998660840306208406803084126180841802508424805084366690844836308462866083630040836410308365173083666530836784808369098083708220837219108373639083757050837735308379017083811910838302608385247083887740839197008395711084015260840693308413713084255760843727108451773083556980835679708357866083593460836054108361792083635150836488408366333083683990837004608371711083738850837571908377940083814670838466308388404083942190839962608406406084182700842996408444466083479530834905208350121083516010835279608354047083557700835713908358588083606540836230108363966083661400836797408370195083737210837691708380657083864720839187808398658084105210842221508436718083391480834024708341317083427970834399208345242083469660834833508349783083518490835349608355161083573330835916608361384083649040836809508371831083776390838304208389818084016770841336708427866083399390834080208341643083427840834367908344589083458050834676308347804083493740835068708352046083538450835536808357207083601140836276008365879083707490837543408381467083917960840190908414555083448280834520108345468083455810834570508346214083479450834980908351586083530070835340808353620083541700835486308355716083571910835856208360363083642930836687208368417083741210838154508390407083495100834921208348948083486450834843008348200083478340834752208347216083468610834664108346449083461390834564108344783083434780834268408342306083426720834373708345515083487430835205508356475083537220835304508352400083514950835076108350017083490580834835008347635083466260834578908344843083432570834157208339309083357580833336008331740083307440833065008330999083322280833376408335890083591280835792108356754083551960835397508352708083509490834954808348080083460100834432608342486083395750833657608332682083270580832337508320664083184470831758908317244083172400831755208318266083602790835872308357202083551350835349708351793083494330834753608345496083424900833997808337247083330970832907108324050083168990831218608308644083056820830424108303098083019940830149708301341083571920835551408353863083515960834977608347864083451840834302408340719083373780833459408331526083267800832231808317003083095830830474108301111082980040829632908294841082934610829271808292036083480980834634608344597083421570834018408338114083352390833294108330499083269670832403408320823083159570831156308306542082997950829553908292391082894750828784608286494082849430828390108282970083309910832930008327604083252000832322908321152083182790831600008313600083101780830737508304354082999410829628108292443082875420828450608282205082799580827861908277449082759440827482108273762083175040831584208314181083118720831000608308040083052910830308208300734082973730829466608291871082880760828504608281891082779940827560708273735082718250827061408269475082679630826681308265680083015200829985908298196082959420829417508292350082898350828782408285677082825680828005008277460082740240827142808268870082657420826380408262270082605790825938408258197082566210825540108254137082816010828011708278625082765400827486008273113082707240826883908266844082639820826167408259305082561870825393208251823082492460824759508246221082445170824324808242009082402340823877708237286082666070826520408263796082618070826018908258504082562120825441508252522082498150824763508245397082424540824038308238506082361640823459508233231082314750823015208228825082267980822512108223470082446610824339008242101082402240823866308237033082348430823315808231415082289660822698808224905082220350822003708218352082162730821480508213421082114280820988508208400082061940820432408202386082157900821453408213286082115850821022808208792082067480820510108203391082010670819926908197436081949760819322808191668081896820818818908186695081846690818307908181404081788930817681608174678081964120819523308194045081923680819101008189606081877230818626608184740081825650818081108179005081766130817491808173396081715380817014008168668081665890816496008163272081607150815858908156411081756340817458608173515081719210817058108169189081673600816597608164535081624680816079108159063081567880815520308153798081520240815064008149186081472070814563608143941081414350813932608137090081517660815077508149776081483050814706608145760081439940814263208141226081392710813772408136140081340310813251808131139081294240812814508126823081248920812329708121648081194610811752608115231081346810813376308132832081314060813017108128868081271360812583808124530081227560812135008119856081177230811614208114749081131980811207308110827081089870810746408105850081036170810175908099700081105030810967308108806081074360810624008104993081033920810221808101024080993380809796808096530080945640809313508091846080902900808912808087901080861600808477108083325080812500807950708077611080802390807942608078597080773440807627708075162080736950807259208071464080698870806862208067304080655050806417508062946080615090806042908059254080577310805652408055172080533410805184908050144080608080806004208059262080580960805711308056089080547400805372108052668080511730804997108048734080470910804584808044632080431920804218608041166080397980803868308037458080358030803444608032907080392960803854708037786080366760803575508034795080335150803253608031527080301150802898608027816080262260802502208023859080224540802145908020485080192780801826508017061080154950801422908012744080128830801213308011372080102620800934108008382080071010800612308005114080037020800257308001403079998120799860807997445079960370799504007994064079928540799183807990632079890630798779307986305,
    83827590838314908383603083842760838482608385436083864920838760708388981083907760839177908392602083949490839890308403878084062890840812908413035084208160842711208434601084480890846042508474289083739550837434508374798083754720837602208376631083776870837880208380177083819720838297508383797083861440839009908395074083974840839932508404230084120110841830808425796084392840845162008465485083628620836325208363706083643790836492908365539083665950836771008369084083708790837188208372705083750520837900608383981083863920838823208393138084009190840721508414704084281920844052808454392083555560835594608356399083570730835762308358232083592880836040308361778083635730836457608365398083677450837170008376675083790850838092608385831083936120839990908407397084208850843322108447086083478110834820108348654083493280834987808350487083515430835265808354033083558280835683108357653083600000836395508368930083713400837318108378086083858670839216408399652084131400842547608439341083390060833939608339850083405230834107308341683083427390834385408345228083470230834802608348849083511960835515008360125083625360836437608369282083770630838335908390848084043360841667208430536083327590833314908333603083342760833482608335436083364920833760708338981083407760834177908342602083449490834890308353878083562890835812908363035083708160837711208384601083980890841042508424289083300240832995908329895083298820832997908330197083306600833112808331708083327330833377408335062083370410833865908340691083451550834814108349990083541750835923008365486083758750838576408397655083252730832429208323506083226750832210708321552083209150832057308320375083202670832024608320287083206540832134308322375083239040832570208328421083327860833656508341126083492950835572808362144083240320832236208320967083194220831834608317279083159210831497208314116083131390831252408312032083116200831153008311681083123550831323408314413083164490831856908321366083261640833109308337403083199010831774208315913083138480831238508310916083089980830760108306271083046230830346008302390083012120830057408300181082999810830007708300435083014220830257608304128083070430831006508313915083115270830908708306974083045360830279008301035082987240829701508295355082932330829167708290186082884350828737508286566082857560828531308285032082849630828522108285823082872620828896808291278083036330830110808298940082964470829465208292829082904150828862608286887082846470828297708281349082794080827822108277296082762680827557908274999082745510827444308274554082752770827626408277629082916690828928808287242082848840828317908281443082791490827746408275843082737580827219108270641082687530826755908266584082654480826467408263991082632380826277008262423082623230826247408262810082772510827531208273664082717720827038708268957082670580826567408264363082626970826144908260211082586990825773608256931082559050825513008254397082535580825294708252277082513000825059108249962082674900826583908264443082628490826168508260482082588880825773208256640082552540825420908253162082518450825096008250191082492820824863508247986082470550824628408245439082441170824293608241650082562750825488308253700082523520825137908250385082490610824807808247123082458920824497208244066082429380824217508241505082407130824013808239548082386990823786908236802082351470823369608232054082424530824133908240425082393870823859508237732082365580823571208234933082339630823323708232502082315350823082708230171082294630822901608228544082276590822680308225779082239490822236308220693082329430823198508231205082303210822963708228885082278780822718408226574082258000822515508224435082234870822287008222355082216780822128108220974082201590821930008218345082166890821514108213392082219890822124908220619082199030821939208218875082181900821767908217180082165290821603708215544082149040821443908214007082135220821315408212728082120800821146408210673082093020820800408206492082103420820988808209526082091240820881508208471082079950820764608207321082069110820660108206285082058690820556608205272082048820820460508204334082038580820338308202800082018100820084908199698082007890820043408200144081998200819958108199326081989800819872408198478081981540819789708197628081972740819702608196797081964850819624708196002081955950819519808194709081938650819302908192015081881230818784108187599081873210818712108186919081866530818645808186269081860070818578508185541081852220818501508184837081845710818435008184127081837940818344708182986081822680818155808180644081709920817075308170564081703540817018608169996081697340816955408169395081691850816899908168787081685290816840108168306081680330816780908167644081673210816698608166599081659630816534008164550081573390815710908156939081567630815662808156471081562520815609508155949081557520815557908155387081551660815507508155013081547440815452608154379081540030815370008153452081528510815222208151510081367210813651208136326081361230813600308135904081357710813564008135473081352440813510008134993081348540813470808134521081342840813410508133907081336420813343908133174081325270813193408131348081079170810774308107616081074870810738408107261081070840810695508106836081066810810655308106409081062020810603808105882081057230810559008105409081051420810490608104619081041410810365308103027080874310808727708087149080870050808689708086781080866190808649708086377080862160808608908085954080857620808560508085444080852440808511208084976080847090808446608084206080837450808327008082680080655770806543308065293080651160806499108064871080647150806459608064474080643150806420208064095080639450806381208063653080634040806324308063119080628890806265708062395080619830806156008060991080397230803956308039429080392770803916608039049080388830803874708038608080384420803834808038281080381800803804708037865080376450803747708037294080370880803689108036613080362100803581008035249,
    83951720839534208396212083987960840110308402872084036720840404108405314084095500841421208419439084265230843242808439355084508740846178008474332084931370851052108530149085585230858620708615271083818130838199208382781083850580838709008388675083894770838990608391137083950000839921008403940084104010841580308422126084325980844253208454014084712890848720308505160085311800855639808583068083649830836517408365859083677500836943708370788083715920837209808373276083766690838031008384414083900890839485808400418084095730841828108428415084437620845782508473676084967320851884308542496083538970835409508354713083563490835780908359006083598120836036808361511083645940836786008371552083767090838106108386120083944060840230708411554084256310843847408452939084740420849410608515771083421450834235208342898083442640834548308346518083473240834793408349040083517950835466408357918083625270836643708370963083783290838537408393680084064120841796208430956084499900846788508487443083287870832900208329467083305270833147108332320083331290833379908334863083372450833966208342420083464040834981208353734083600530836612508373362083845630839464508405967084226470843807608455239083193080831953008319937083207790832152908322247083230570832376908324804083269210832901808331423083349650833801608341509083470860835246808358945083690610837810008388236084032470841692608432390083059590830619008306516083070520830752808308061083088720830964508310637083123820831402708315936083188550832140408324292083288250833323508338643083472300835480108363267083759260838714508400215082915490829177908292058082924300829274008293116082937740829443408295267082966720829796108299436083016780830365408305932083095510831297508317191083241270833020708336872083468830835638808366615082805070828064808280844082811590828143708281754082822470828272108283327082843820828537508286527082882950828984808291619082944110829712108300471083059110831080208316248083243120833183508340177082685300826863008268757082689410826910608269310082696660827001108270432082711190827175808272520082737390827482808276062082780000827994108282356082862050828970508293716082997540830507708311455082557580825581608255899082560370825615808256288082564760825665408256889082573190825774008258244082590440825976608260605082619370826319908264775082674380826981308272514082767650828065408285230082461110824612408246166082462810824639508246509082466400824675408246914082472340824755708247938082485250824904808249655082506280825156008252733082547180825648708258510082617470826476108268325082326710823266708232672082327020823274508232804082329100823301908233161082334050823361808233841082341430823442308234794082354770823612908236898082381320823927408240610082427060824468808247091082167840821678408216784082167800821677708216775082167780821679208216824082169030821700108217140082173900821760808217827082181250821846108218867082194250822009108220913082219650822299308224345082058600820585808205861082058710820587408205861082058170820580008205833082059860820613508206256082063200820635908206461082067610820705108207348082077320820806108208471082092110820996908210852081964550819645308196457081964720819648408196487081964720819646608196487081965720819664908196702081967060819671008196773081969800819712108197251081975030819768708197890081983280819876908199260081964530819645208196455081964720819648808196503081965110819650908196502081964900819648508196493081965260819655608196576081965810819659308196615081966440819670508196790081968860819696708197066082044970820450308204491082044300820437008204323082043030820431108204324082043300820433008204330082043370820434808204363082043730820431808204245082042150820416208204079082040110820396908203882082187290821873708218720082186390821855808218492082184590821846508218482082185000821850108218486082184420821841608218423082184510821830708218125082181400821807208217852082175180821732608217114082267560822676208226749082266840822662208226573082265570822657408226601082266320822663208226595082264840822639608226349082263610822628108226125082259430822581108225673082254610822516508224708082242880822428908224285082242610822422408224166082240590822398608223950082239820822401908224013082238930822377708223711082237230822362308223469082234150822334408223168082228110822250108222118082157800821578008215783082157920821579808215799082157820821575308215707082156190821554408215472082154010821537708215388082154160821529208215085082149000821475108214552082142220821388408213512082013280820131208201298082012910820129408201300082013100820130908201291082012330820117508201118082010600820102508200995082009460820087308200747082005060820033408200167081998610819953308199133081888450818883208188819081888060818879708188784081887590818874008188727081887220818871608188697081886350818856408188476081883550818830008188250081881040818795308187763081874200818713308186777081688450816884608168840081688140816879008168773081687740816878108168780081687540816872208168691081686550816861508168544081684090816835708168306081680940816791008167741081674840816719308166814081410210814103708141049081410530814105208141055081410710814107508141056081409800814091108140861081408500814085208140829081407150814057808140475081404680814033808140075081397320813951808139255081223180812222008122131081220880812209808122123081221480812215108122134081220820812205108122059081221420812217908122107081218270812173708121725081215530812146208121393081211290812082908120483081020830810203808101999081019830810198908101997081019940810198308101969081019530810194408101941081019400810191708101850081017010810163808101585081014030810130708101226081009650810069008100375080798170807982208079829080798390807984008079831080797990807977208079753080797520807975508079745080796940807963908079584080795240807947808079419080793050807917608079023080788130807863408078380,
    84115180841038908409541084137300841826608422662084267370842770208427419084266070842669608428007084324430843794708443470084470700844683908453180084729840848775208501296085211460854084708563666084005700839964808398939084026160840664308410571084142480841516208414972084143270841445708415681084197470842477708429845084332540843319208438994084568900847031208482675085008410851890408539810083867980838611908385596083886490839204708395396083985820839943308399358083989200839910008400219084038310840828108412793084159680841611208421245084367820844853308459430084754990849151608510027083777370837720908376815083794720838246308385438083883060838911708389116083888120838902608390078083934000839748008401637084046620840493708409639084236570843433008444279084589950847368508490641083681430836776508367515083697640837233108374917083774550837822408378301083781350837838508379369083823920838609108389884083927550839316208397416084098620841941908428389084417040845502008470365083572490835703108356952083587540836084808363002083651740836589608366059083660490836633808367248083699430837322408376619083793220837987208383632083943480840267908410575084223620843417508447763083495280834941608349463083509590835272508354579083564970835718708357409083575070835782508358684083611540836415108367274083698620837050908373928083834620839095608398123084088790841968108432092083386550833868508338918083399990834131208342752083443230834496908345273083455190834587608346667083488340835144508354204083566390835741308360369083683070837468208380881083902820839976208410656083244040832465608325261083263900832732908328229083292030832969608330059083305360833103208331698083328800833404908335495083378070833997208342683083476160835256008357662083651250837263008381267083138640831429808315255083167270831762308318286083188620831912108319291083194890831971508320134083211990832246708323891083254930832648308328565083335670833814508342560083488000835507808361898083053250830542808305673083061190830648508306842083072570830750808307727083080260830830908308717083095780831052108311581083128740831377208315363083187920832182608325010083298320833447608339897082939400829397108294039082941370829419208294244082943430829446408294635082949460829525208295622082962070829672808297330082982770829914508300232083021310830396108306066083094160831259308316213082849420828496308285010082850860828513708285189082852700828535308285464082856740828589008286159082866020828700208287455082881220828870808289507082909500829226908293829082963520829865808301387082721060827210908272115082721310827215208272183082722510827232508272418082725640827269108272846082731210827339608273714082741720827454508275017082758760827672408277770082794270828086508282643082556450825564308255644082556610825569008255731082557900825583408255879082559430825600208256080082562310825638708256562082567840825694808257231082577770825820408258761082597400826058108261583082444460824444708244448082444450824443908244439082444610824450308244558082446320824467908244728082448210824492308245043082452050824532208245475082457910824613308246542082471330824762008248302082323390823232908232311082322870823227808232275082322670823225608232250082322750823233008232410082325340823262608232704082327620823278308232874082331030823327308233504082339430823432708234734082199240822001908220221082205060822064808220739082208400822093508221030082211140822112408221114082211280822119108221279082213820822141508221397082214130822156808221736082219160822209908222342082161080821615208216260082164730821666308216851082170490821713908217196082172720821735808217451082175410821756108217558082175640821759308217601082176010821764208217591082174380821746208217601082165440821654908216561082165840821661508216712082170390821747608217967082184640821859608218581082185140821853108218568082185350821841008218330082183240821825008217967082174990821741708217388082209680822096508220961082209700822099008221000082209530822085308220729082206020822057508220584082205940822055908220474082202700822007808220029082199700821960108219329082190880821855008217966082176090821761108217613082176090821759808217586082175810821759208217601082175810821752608217438082172840821715408217041082169710821698408216929082166250821623608215840082153610821496208214534082096700820966608209660082096700820969408209710082096680820956508209434082092950820925708209254082092420820918908209101082089530820882908208694082084510820817108207829082072910820679608206221081955950819559408195590081955800819556708195553081955390819553308195527081955090819548008195433081953330819522808195112081949700819487408194716081944200819419508193893081933200819279308192204081835190818350608183480081834480818343908183441081834500818345408183445081834010818333708183255081831420818306308182983081828560818273608182606081823680818208208181754081812500818073908180120081641310816414808164181081642210816423008164221081641950816417008164135081640620816398208163896081637990816375108163699081635650816339708163251081630550816278708162458081619550816146808160845081352900813527408135256081352890813539408135560081358470813609308136341081366390813681708136937081369790813691408136790081365910813645408136355081361980813595808135672081352020813469308134155081162700811628608116303081162660811617608116120081162840811667308117176081177510811796408118020081179860811795408117893081176880811745008117392081173690811697408116665081163930811582508115216080950900809510408095120080950890809500908094960080951040809545108095908080964640809671408096831080968580809683108096764080966000809642608096278080961120809591808095659080952160809479208094295080704380807045008070468080704590807041708070404080705540807085408071244080717310807197708072113080721650807213408072062080719360807183108071696080714640807126208071024080706230807023308069745,
    84362070843620708436696084382580843949808440351084409780844127008441600084425890844415908446684084511510845501408459052084648670846987708475738084860280849634708508962085287440854618008566389084247970842479708425230084266180842772608428500084290920842938808429728084306800843213708434449084385260844205908445771084511410845577908461205084707140848023208491861085101140852621508544865084104220841042208410786084119540841289508413568084141160841441908414771084156760841699108419034084226190842573708429038084338480843801608442895084514190845993008470316084866430850106208517749084009540840095408401271084022940840312608403733084042520840455908404919084057930840701408408881084121410841498608418017084224570842631608430834084387110844655708456124084711830848449408499888083909180839091808391185083920550839277108393307083937960839410808394476083953160839643908398118084010350840359008406334084103830841391408418050084252390843238108441080084547950846693108480954083795080837950808379720083804150838099908381455083819100838222608382604083834070838441708385883083884090839063408393052083966570839981608403516084099250841626608423979084361650844696608459431083714130837141308371585083721570837264608373046083734760837379608374180083749570837588808377202083794510838144208383629083869180838981208393204083990590840483308411845084229470843280108444160083600030836000308360120083605170836087408361195083615900836191408362308083630480836386608364967083668250836848708370348083731920837571408378671083837440838871808394744084043170841283608422636083456240834562408345672083458530834604708346268083466190834694808347352083480420834871708349551083509200835217008353620083559020835795208360360083644480836841408373199083808460838768208395519083360240833602408336066083362260833639908336596083369020833718108337514083380830833864808339356083405150834155808342747083446040834627908348262083516630835499008359020083654090837109408377637083259290832592908325983083261620832631408326442083266140832679608327058083275370832800008328551083294300833022408331143083325940833390708335457083380990834071208343932083489950835346608358658083144290831442908314476083146250831474108314820083149170831503808315236083155990831592408316281083168360831735508317987083190070831992408320995083228450832467608326898083304040833352308337153083060360830603608306076083062100830632808306431083065520830665208306772083069760830717108307413083078310830824808308765083095610831021008310909083122120831360808315330083179230832019708322941082941910829419108294201082942390829427808294320082943880829445908294550082946880829479108294892082950850829533908295718082963290829678808297213082979710829885608300045083018050830333708305258082788620827886208278865082788800827889808278923082789640827899808279035082790980827916808279264082794350827959908279793082800800828030708280552082810560828158008282166082831490828407908285153082685630826856308268559082685520826855608268573082686120826864908268688082687450826879408268851082689510826905408269186082693900826955108269719082700490827041308270857082715140827212208272916082574290825742908257427082574240825742908257447082574790825750108257516082575350825756108257603082576740825772908257780082578750825799608258169082583870825858608258907082594070825981508260302082444500824445008244451082444540824445608244457082444550824444908244441082444350824444408244470082445350824460808244699082448070824484508244848082450000824521008245376082456450824591308246207082351400823514008235135082351200823511208235111082351150823511508235111082351070823511808235146082352010823524408235280082353180823534008235368082355070823565808235768082359100823608408236347082216170822161708221639082217030822174708221764082217570822174508221739082217390822174408221748082217400822171008221660082216280822169408221844082218870822184108221928082221720822231908222374082038120820381208203847082039530820402508204055082040460820402808204019082040210820402808204038082040510820405708204059082040570820405308204052082040780820409208204078082041920820431708204330081918890819188908191882081918600819184408191836081918340819183408191833081918320819183408191843081918570819186608191871081918800819189508191919081919460819196408191991081920050819202308192084081785300817853008178531081785360817854408178557081785750817858608178592081785910817858608178579081785740817857908178595081786200817863008178625081786180817861408178603081786240817865808178677081628640816286408162862081628590816286208162875081628970816291008162915081629130816291008162910081629120816291108162909081629030816290108162902081629030816290408162905081629040816289908162892081513470815134708151348081513500815134808151344081513350815133008151329081513300815133008151329081513270815133008151337081513490815135508151356081513550815135408151354081513540815135708151359081343090813430908134308081343080813430808134310081343140813431408134313081343120813431408134322081343260813431508134284081342340813420908134206081342090813420808134208081342080813420708134206081122750811227508112275081122750811227508112276081122760811227408112271081122690811227408112287081122940811227408112223081121410811210308112102081121110811210908112108081121080811210908112110080976460809764608097646080976460809764608097646080976460809764608097647080976480809764608097642080976400809764608097662080976820809768308097665080976530809765608097657080976550809765708097661080823460808234608082346080823460808234608082346080823460808234608082346080823470808234608082345080823440808234608082351080823500808233508082305080822860808229108082293080822870808228708082295080646330806463308064633080646330806463308064633080646330806463308064633080646330806463308064633080646330806463308064633080646330806463508064638080646400806463908064638080646440806465308064655]

/-- `json_database/plt96_ne.json`. -/
def plt96_ne : PackedFile where
  temperature := [9930123, 9947732, 9969917, 9984530, 10000020, 10017629, 10030123, 10047732, 10069917, 10084530, 10100020, 10117629, 10130123, 10147732, 10169917, 10184530, 10200020, 10217629, 10230123, 10247732, 10269917, 10284530, 10300020, 10317629, 10330123, 10347732, 10369917, 10384530, 10400020, 10417629]
  density := [11369897, 11400000, 11430103, 11469897, 11500000, 11530103, 11569897, 11600000, 11630103, 11669897, 11700000, 11730103, 11769897, 11800000, 11830103, 11869897, 11900000, 11930103, 11969897, 12000000, 12030103, 12069897, 12100000, 12130103]
  levels := [
    32360400323518803234285032331300323227703231375032302190322936703228466032273060322645003225552032243920322354003222655032214450322055803219738032185680321758503216559033645020323255703211830046209610462096304620964046209660462096804620969046209720462097304620971046209850462097804620941046211140462098304620451046228420462099104613576046469310462097704460669044012780441054104440368053663910536642005366314053662750536630505366199053661570536618905366093053660030536599305365927053658700536587605365870053657880536585805366075053650070536598005373258053808470537790505374211057943010579435605794308057943220579437805794330057943420579440005794359057943330579435805794341057943350579438605794475057945720579454105794498057954190579489905791315057883760578848005788885060981970609821906098190060981890609821106098182060981820609820306098175060981730609819606098173060981720609824106098346060983820609848906098870060991590609931506099610060979040609501606092056063440620634410006344058063440620634410106344059063440620634410206344067063440390634406606344086063441030634413506344212063444290634472806345121063451510634399406341034063339030632691006319767064674620646754306467451064674610646754206467451064674610646754206467448064674740646761406467621064675960646765106467767064680510646840006468734064677960646527606460763064503590643995606429238065933880659343906593382065933880659343906593381065933910659343906593368065934490659361006593614065935790659364706593803065940870659437506594494065920530658744106580446065659860655201806537643066958700669589406695867066958690669589406695867066958690669589506695874066958460669585206695866066959020669596006696071066964000669661806696210066921350668581206676941066594740664284106625746067400050674005706739999067400050674005706740000067400010674005206740000067399710674000506740001067400220674010206740237067405310674059406739860067351490672825506718688067002350668287106665052067727600677278306772757067727600677278306772754067727710677280806772780067727980677282206772750067727510677286806772995067732050677312806772152067670410675987306750048067311450671335406695099067975060679752706797504067975070679752706797501067975190679755706797535067975400679756606797539067975570679763706797726067978580679768606796589067913070678411806774399067554420673740306718874068095040680953206809500068095030680953206809501068094990680952006809487068094900680952906809527068095230680956806809662068097490680950206808368068031490679609606786535067677200674973906731265068209700682098706820968068209700682098706820967068209720682099106820970068209990682104406821020068209460682097606821136068211590682078906819677068146700680788506798672067803360676269706744563068297190682974906829715068297190682974906829715068297190682974806829705068296920682972706829724068297090682974306829822068297740682941006828341068237650681753706808927067913930677433406756776068336480683367706833644068336480683367706833644068336490683367706833633068336180683365106833645068336570683366806833616068335060683317506832091068278580682214106813967067969810678038006763291068366890683670906836687068366890683670906836687068366890683670906836690068366940683672206836714068366720683666806836702068365190683606506835095068312910682597806818283068019960678593006769373068393500683938306839346068393500683938306839346068393480683938306839354068393160683932306839335068393440683932906839271068390530683867606837811068343120682941406822347068069880679158806775688068410640684108906841061068410630684108906841061068410620684108906841065068410460684106206841072068410610684102906840957068407190684029306839366068361320683168106825031068102380679533206779937068433520684336006843351068433520684336006843350068433530684336006843344068433770684341106843368068432920684327106843254068430240684254606841603068386240683457706828482068145790680041106785761068463020684629106846303068463020684629106846302068463070684629106846284068463760684642806846324068461760684617106846219068460000684547706844566068418810683826406832836068200560680681806793109068482970684827506848300068482980684827506848298068483040684827506848273068483980684846106848323068481340684813806848223068480100684746806846602068441020684073906835734068236850681105806797968068504550685042306850458068504550685042306850456068504630685042306850425068505810685065306850483068502580685027006850389068501800684962806848827068465160684339906838829068275490681556906803134068529580685291606852962068529590685291606852960068529670685291606852923068531080685318906852989068527290685275006852902068526940685214206851434068493280684646606842376068319620682071606809024068547640685471706854770068547650685471706854767068547750685471706854727068549290685501606854797068545170685454306854715068545070685396006853330068513640684866906844909068351060682437906813214068573520685729806857358068573530685729806857355068573640685729806857311068575330685762706857387068570830685711506857311068571020685657006856062068542870685180606848501068395530682955706819133068606760686061606860683068606780686061606860680068606890686061606860632068608740686097306860713068603870686042606860645068604320685992906859595068580490685581206853062068451810683610406826613068629020686283906862910068629040686283906862906068629160686283906862857068631080686321006862940068626040686264606862877068626590686218206861972068605710685847906856085068489020684042906831552068652920686522506865300068652930686522506865296068653060686522506865245068655040686560806865329068649860686503106865272068650490686460306864532068632780686132906859306068528580684502506836797068680430686797406868051068680440686797406868047068680570686797406867995068682590686836506868081068677320686777906868030068677980686739306867486068663940686459606862985068573690685026206842772,
    20000000200000002000000020000000200000002000000020000000200000002000000020000000200000002000000020000000200000002000000020000000200000002000000020000000200000002000000020000000200000002000000029959640299799903000015030027000300476203006791030094690301153203013562030162400301830303020332030230140302507903027087030298140303163703032197030318970303195003031907030316690303147603031073045794650457939304579308045791870457910804579023045789070457882504578739045786240457854304578456045783350457824404578141045779790457784104577685045773270457676904575809045740940457272404571298052375290523752605237538052375330523750005237499052375000523746705237464052374660523743205237430052374310523739905237400052373960523734505237325052371990523687905236369052350920523369805232481057326690573266405732656057326460573264005732633057326230573261705732609057326010573259605732579057325930573264205732639057326580573279405732982057333620573366805733592057325470573116105729614061164840611650006116549061165770611654206116566061166040611656906116591061166300611659306116616061166910611672106116824061170890611744406118155061197280612101806121443061202930611868706117125063100140631001606310028063100310631001506310018063100250631000806310012063100210631000706310024063100760631013606310298063107380631140306312706063152100631680006316823063149140631319306311695065040550650404506504006065039910650403206504015065039910650403506504006065040000650410906504114065041070650427606504523065052190650639106508409065112710651210606511126065086580650721606505908066610730666106406661032066610180666105106661041066610120666104206661075066611150666114606661162066612370666141606661745066626980666415306666506066689350666863806667189066649420666346106661762067284790672847906728480067284800672847906728479067284800672848006728478067284780672847806728471067284880672861506728992067300280673143406733694067357290673498906733413067313260672976006727466067780950677809306778086067780830677809006778089067780790677808406778112067781460677814306778145067782380677843006778752067796700678101706782984067845320678371106782238067800940677808806775112068153470681534406815335068153310681533906815335068153320681534206815326068154020681556406815596068156170681580306816007068166890681786706819493068206910681994806818521068161840681381506810206068330110683301506833030068330370683302406833028068330390683302806833015068330560683313806833202068332790683338706833562068342050683522306836596068375520683683506835498068331610683060606826699068493080684930906849312068493070684929606849302068493070684929506849306068492970684926206849337068494930684955106849690068502440685104606852085068527350685207606850899068486620684598306841815068599130685992906859990068600630686006006860051068600530686005606860055068600540686005906860052068600610686012506860259068606290686113106861833068623300686187706860898068588340685624506851998068632070686321406863239068632470686321906863230068632490686322106863234068632470686321406863267068633790686340606863487068637540686412406864707068651300686469006863745068617550685928006855214068645050686450706864514068645180686450906864503068645350686458606864615068646100686460106864605068646340686468106864777068649860686524306865670068660220686570706864870068629950686065106856697068641760686416906864144068641360686416406864150068641390686418706864184068641640686419406864172068641650686425706864310068644320686469406865047068653210686510206864401068627000686050806856783068630570686304806863014068630000686303406863022068629970686302706863013068629920686302706863008068630100686310706863146068632370686348206863803068640130686378506863199068616560685952006856041068605320686053406860541068605440686053706860540068605450686053906860541068605470686054106860534068605630686062906860703068608060686093606861178068613950686121306860685068592910685736706854151068567100685671606856741068567510685672606856736068567530685672706856736068567520685672606856737068567500685672406856774068569190685702806857191068573850685731206856842068556140685403606851216068538580685386206853879068538860685386806853875068538860685386906853875068538860685386806853877068538820685386106853911068540580685418306854364068545300685442706854064068530200685151306848918068507420685075106850785068507990685076406850778068508010685076506850777068508000685076406850780068507950685075406850825068509640685100606851165068513960685134206851013068500620684872306846395068471980684721406847277068473020684723806847263068473050684723906847262068473050684723806847266068472960684721606847314068474460684736106847475068478090684784506847525068466380684553106843528068446850684470606844790068448230684473806844772068448280684474006844771068448280684473906844776068448160684470906844825068449530684477806844861068452680684536606845053068442110684326606841494068411460684117506841289068413340684121806841264068413400684122206841263068413400684122006841270068413250684117806841321068414430684114306841184068416920684187506841571068407920684007506838628068366920683673106836884068369450683679006836850068369530683679406836849068369530683679206836858068369330683673606836913068370280683657206836561068371960683748306837191068364910683605406835017068337620683380806833987068340570683387606833947068340680683388106833946068340670683387806833956068340440683381306834012068341250683356606833523068342400683459406834310068336600683340606832639068306580683071106830918068310000683079006830873068310120683079606830871068310120683079306830882068309860683071806830941068310510683038506830307068311120683153406831258068306620683060006830119068271340682719506827435068275300682728606827382068275430682729306827380068275430682729006827392068275140682720406827454068275610682677406826659068275620682805906827793068272570682740906827255,
    61405870611285406083693060441690601394105983660059438910591421305884633058449490581466605784391057445200571437705684353056452000561586605586716055484260551919305489439054490680541733505384651062693660624189606212874061736400614367606113595060738530604396506014137059744450594425305914052058742710584414605814038057745340574472305714953056757830564601105616007055760310554529205514153064288180640173506372931063340780630443406274594062349000620476906174647061349370610483606074698060349980600489005974706059348860590464605874318058343560580409905773871057342510570440505674658065077860648138406453077064145930638506306355287063157080628560806255460062157160618554806155305061154810608535206055276060158990598626905956739059179030588833905858434058182980578716905755428065657280654063606513553064761980644709306417487063780000634798406317961062784610624864306218859061795590614957706119156060780680604613406013850059722180594310605917955058931850588066805871969066121940658953306564983065302040650227806473394064346060640501506375450063370450630895406282689062532590623662506225254062167550621352306211737062103670620980106209482062091130620879506208294066360500661554506593244065608500653433106506950064715460644709406426486064070860639803606392467063882670638643506385288063844240638413306384041063840630638422606384420063844430638433606384031066634880664729906630649066081580659234906579430065680010656292306559867065577130655694606556604065564830655658006556769065569910655708706557090065569390655680406556709065566070655637206555960067168590671059606705202066993840669624506694217066928060669232106692096066919740669193906691919066918850669185606691828066918020669179606691789066917590669178106691793066916310669146606691247067609940675807706755667067532820675212506751434067509310675073506750633067505510675051106750492067504980675050706750515067505270675052806750527067505360675052606750480067503530675023506750052068019930680053006799432067983550679781006797461067971820679708706797060067970530679704706797038067970310679702706797021067970150679701406797015067970110679698206796973067970380679688006796530068385270683776806837256068367300683643406836233068360700683601506835998068359870683598506835985068359800683597806835979068359790683598006835980068359770683599206835988068358680683574106835538068580740685758206857256068568940685668106856539068564290685639306856381068563720685637006856369068563650685636306856363068563620685636706856365068563290685632406856313068561760685601906855766068777410687746806877280068770580687692606876838068767640687673906876733068767260687672406876725068767240687672506876725068767230687673006876729068766730687663706876607068764890687626406875871068923200689220006892114068919980689192506891880068918480689183806891832068918220689181706891817068918200689182106891820068918210689182206891819068917940689176206891704068915410689129806890873068979880689791906897872068977950689774306897712068977020689769406897691068977230689774006897735068977070689769806897701068976990689769006897668068976120689755406897463068972370689696706896514069020540690200006901967069019370690191706901892069018450690186606901855069016020690150106901533069015270690151506901519069015180690151506901503069014690690149006901494069012400690077306900083069033930690337106903357069033310690331206903299069032900690329206903290069032550690324106903245069032470690324606903246069032490690324306903245069032720690316206902937069026200690227506901727069035110690349506903484069034670690345606903452069034520690344506903447069034960690351606903510069035070690350806903506069034990690348806903491069035190690338106903100069027250690242806901954069025380690252706902520069025150690251306902512069025090690251106902510069024880690247906902482069024820690248506902491069024910690247806902485069025340690235906902085069019690690170506901116069000970690009206900088069000820690008006900078069000780690007706900077069000790690007906900079069000830690006606900042069000430690003006900004068999850689992206899821068996790689942706898963068978100689780806897806068978030689780206897801068978000689780006897800068977990689779906897799068978000689779506897786068977820689778306897772068977260689771306897690068975290689731206896964068953630689536106895360068953580689535806895357068953570689535706895357068953570689535706895357068953570689535806895361068953690689537506895377068953660689534906895315068952070689504706894744068927180689271706892716068927150689271406892714068927140689271406892714068927140689271406892714068927130689271806892716068926760689265906892664068926710689265506892620068925480689241206892136068906910689069006890689068906890689068806890688068906880689068806890688068906880689068806890688068906870689069106890690068906620689065406890656068906330689061706890603068905410689040906890149068877710688776906887769068877690688776806887768068877680688776806887768068877680688776706887768068877690688776306887764068878110688784306887832068877420688773706887771068876890688754606887307068840890688408806884088068840870688408706884087068840870688408706884087068840870688408606884086068840910688407206884076068842190688430206884273068840980688410906884204068840950688393906883725068816640688166306881663068816630688166306881662068816620688166206881662068816620688166006881661068816680688164106881647068818530688197006881929068816980688171906881855068817280688156306881366068790940687909306879093068790920687909206879092068790920687909206879092068790930687909006879091068791000687906306879072068793450687949806879445068791540687918606879365068792180687904406878865068761720687617106876171068761710687617106876171068761710687617106876171068761710687616806876169068761810687613406876145068764940687668806876620068762620687630606876534068763660687618106876022,
    59452370591474205883764058424430581062505778069057345970570299305673927056423180562592505615080056047820559501105577330055299050546722905386230053080080526211805195256050649960493848404797563060691480604018006010475059704240593954005908202058666090583580605806242057705610574763305728177057057580568825405666250056228420557543805522238054651530542324505367910052672480517239405067926062436710621906606192591061550490612536306095242060554330602540005995459059561740592693505898276058612780583367805806055057682420573770305706115056631840562752505586763055230780546800205409484063736850635230706328061062920760626292606233134061936940616382206133873060941240606396106033840059940890596388305933660058937460586345905833277057937170576399905734786056973070566984505643560065079800648916706466705064319510640318306373546063342020630437206274475062348190620473006174772061356810610672306078909060451410602294306004762059878580597998405975311059722250597100305969926066088120659225606571530065381860651007706480992064426300641413406386617063534170633252006316327063021630629592506292463062904860629001106289973062901570629021606290254062902120628982306288987066555110664045906621107065895220656309406536528065043530648423906468876064558640645047406447485064455880644489206444532064443530644433906444371064444060644438106444340064442210644393506443333066988130668647406670450066459780662876506615184066034750659834606595434065936460659304106592764065926170659252706592488065925190659251306592513065925380659251206592482065924040659216306591693067442080673741306729573067197880671434306710866067085280670773406707372067071770670709206707031067069920670698806706980067069550670695606706930067068620670686506706842067067110670658606706303067756550677159706767215067622910675970106758074067569960675666406756515067564010675637006756357067563400675633906756341067563420675634306756342067563450675635706756329067562210675613106755925068059220680345706800776067980090679669906795919067953740679519606795109067950380679502206795018067950090679500706795009067950070679500106794996067949950679499906794992067949480679487006794704068344100683297806831335068297570682914606828838068285740682845106828378068283330682832806828332068283320682833206828332068283330682833406828336068283350682832506828333068283250682820306828016068513350685039306849250068481760684781806847671068475090684741206847354068473290684732606847325068473250684732506847325068473250684732406847327068473250684729806847287068472870684721806847100068709130687042606869784068691910686903906869007068689340686887106868831068688210686881906868817068688180686881806868817068688180686881806868820068688130686877706868741068687100686865206868514068874650688726606886964068866820688663206886641068866070688656806886546068865480688654406886538068865380688654106886540068865300688652206886515068865020688647406886436068863550688623006886048068940970689397706893793068936290689361406893632068936130689358506893570068935750689357106893566068935670689356906893562068935360689351806893514068935090689346506893401068932950689316406892949068983410689825906898141068980430689804306898065068980650689805106898038068980300689802806898027068980250689802206898009068979850689798406897971068979260689790506897860068977280689758206897338069006890690066006900601069005350690052306900535069005540690055606900534069004870690047606900486069005080690050906900509069005110690049206900473069004480690039006900312069001840690002806899785069012400690121706901177069011340690112606901130069011330690113406901137069011340690111906901118069011450690114606901144069011440690113106901152069011340690090406900733069007100690052206900244069009450690092806900899069008710690086906900879069008900690088906900872069008690690091606900812069004710690043406900479069004700690046506900461069004610690048806900517069004660690027906899984068988100689880006898784068987690689876806898773068987760689877306898763068987410689873206898749068987940689879106898786068987900689875506898735068987440689869206898605068984710689833506898109068969140689690606896891068968770689687706896885068968960689689306896869068968260689682206896827068968230689682206896825068968210689679506896775068967740689676006896713068965910689645806896241068943650689435706894345068943350689433406894336068943350689433406894335068943370689433706894336068943380689434506894329068942850689428706894283068942390689421106894175068940880689397806893770068911300689112406891115068911060689110506891104068910990689109306891088068910870689109006891091068910910689109506891084068910480689104306891047068910390689102306890986068908860689076106890565068887100688870506888698068886950688869306888685068886590688863906888627068886280688863206888633068886320688863306888631068886300688863606888619068885720688857706888562068884540688834106888170068851560688515106885142068851340688513306885134068851340688513606885143068851400688510306885074068850790688508006885079068850770688507006885072068850790688504406885009068849610688484706884668068805530688054806880540068805320688053106880531068805260688051906880510068805120688054306880567068805630688055906880567068805650688050706880449068804440688048406880491068804130688033606880203068775140687751006877502068774960687749406877492068774790687746206877439068774470687753206877599068775880687758006877595068775920687749906877394068773730687747306877515068774060687735806877261068742930687428906874282068742770687427606874271068742500687422206874184068741970687434106874452068744340687442206874444068744420687431206874156068741170687428106874360068742200687420206874143068706310687062706870622068706190687061706870609068705790687053906870484068705030687071306870875068708490687083206870863068708610687068906870475068704170687065306870774068705970687061406870598,
    57594460575939205759284057590980575895705758780057582680575748705755835057505130574270305730499057063380568193405653603056144660558445005553412055070660546076405395573052671200514707005024029059112100591116805911082059109300591080605910642059101760590948205908017059032670589626505885186058627220583968305812620057744900574488905714339056697650562752305571055054646190536724605268546061023650610233806102282061021720610207006101922061015150610092906099700060956710608968706080027060596980603838006012914059760540594697505917041058747020583758005792116057135360564520705578906062281800622816306228126062280440622795606227819062274500622693606225863062223080621699406208269061893480616916306144750061087300608000106050485060096550597597705937938058785210583116505789360063612770636127106361253063612010636112906361003063606750636023706359329063562780635167606343944063265220630755306284282062492300622100006192181061537050612488706096955060631120604242106027065065043090650430906504304065042740650421906504114065038430650348906502754065002620649648306489955064745590645742006436249064046620638064706358843063361150632450506317108063116860630918506306925065772380657722906577209065771670657712306577054065768490657654906575914065738100657067906565284065525120653832706521388064987680648464006474532064667550646360306461757064603550645944306458158066549880665499506655007066550080665497906654915066547690665460706654278066530980665127306648151066411180663380906626066066178010661374206611294066096680660910806608792066083580660783306606943067366710673666706736660067366450673663306736617067365780673652506736417067360690673555506734686067327500673079606728822067268770672598306725468067250980672494706724843067246620672438006723825067797780677977906779780067797810677977906779774067797600677974006779695067795340677927706778831067778580677689206775915067749260677447606774220067740060677393506773911067737480677351306773124068148610681486106814861068148610681485906814854068148430681482706814795068146910681452206814225068135720681290206812205068114860681115306810965068108430681080806810778068106410681049106810258068438140684381306843813068438110684380806843805068437960684378206843753068436690684353606843298068427520684217406841561068409000684058906840406068402530684020006840179068400860684000306839883068593130685931206859312068593110685930906859306068592970685928306859258068591850685906906858858068583590685781606857224068565710685625106856058068559160685587106855856068558120685574406855622068764280687642706876427068764260687642506876423068764170687640706876385068763230687622406876044068756070687511306874537068738290687345906873246068731060687305906873037068730120687298106872920068913880689138706891386068913830689138106891378068913740689136706891353068913040689122006891068068907070689027306889739068890760688870906888478068883430688827106888188068881490688811806888045068977020689770006897697068976920689768706897683068976790689767706897669068976280689754806897403068970880689671106896228068955940689524206895018068948040689470706894664068946030689456606894538069019340690193406901934069019330690193106901929069019250690192006901909069018780690182406901724069014740690116406900761069002120689992506899729068993570689916706899150068991240689911506899145069043460690434506904345069043450690434506904344069043410690433706904329069043050690426706904197069040180690379206903504069031170690289006902743069026430690259506902573069026270690248906902204069052060690520606905206069052060690520506905204069052010690519806905192069051750690514606905093069049580690479106904578069042970690413406904029069039610690396506903948069036920690354706903531069052350690523506905235069052350690523506905234069052330690523106905227069052160690519806905164069050810690497806904849069046830690459106904530069044810690447806904500069044860690432606904098069042040690420306904203069042020690420206904201069042010690419906904197069041910690418406904169069041250690407106904007069039310690387806903852069038940690374806903427069032880690337806903436069025900690259106902592069025930690259306902593069025920690259206902592069025870690257806902562069025340690250106902461069024190690238506902361069023920690228606902053069019630690200706901988069004340690043906900442069004450690044406900442069004420690044606900452069004480690042406900388069003640690034706900322069003040690027706900236069002270690021006900159069000960690006006900008068977540689774606897732068977110689770106897699068977020689770406897704068977020689770006897696068976850689767706897664068976150689758606897582068975840689757306897542068974760689742106897364068957020689570006895697068956920689569106895694068956940689568706895672068956510689564506895645068956380689563006895621068956000689559406895597068955710689553706895505068954650689542606895361068926950689268406892682068926870689269006892691068926900689268806892686068926820689267806892676068926780689267606892670068926720689265306892615068926020689259006892555068925140689248906892451068888740688887706888878068888770688887706888877068888770688887706888876068888750688887306888863068888220688879906888799068887980688879806888805068888110688879306888755068887200688869606888649068863260688632506886326068863260688632306886320068863200688632906886344068863440688630806886258068862580688627206886269068862660688626206886256068862650688624406886201068862170688618806886095068836210688361506883615068836160688361206883604068836040688362506883658068836600688358506883489068835400688359906883590068835860688357506883549068835590688353606883488068835620688352906883382068805480688053506880534068805370688053106880517068805170688055106880604068806090688049006880341068804500688055906880544068805380688051906880470068804830688045706880403068805430688050406880297,
    59287040592882905928748059280480592721305926438059259350592572605925148059229590591916305912372058968810587779105850645058032750576036505709376056150580552406905427354053189870526612805237455060426470604275006042683060421050604141406040768060403390604014306039627060377220603440006028398060145790599736805972702059294380589024205844243057618670568425805602991055140320547226005449938061862000618627606186226061858020618529206184810061844730618429406183854061823080617958306174575061628640614802006126478060883900605387706014176059469080588636105825167057617600573372805718712062807590628081706280779062804560628006506279692062794140627924706278858062775480627521606270863062605420624725806227777061931090616169806126188060690570602016705972974059268900590726705896450063810160638105406381029063808130638054806380290063800770637992106379586063785270637661306372957063641130635249306335215063042300627621106245354061996410616407506132632061043460609251006085477064952550649527206495261064951670649504706494920064947800649463906494367064935970649216606489319064822040647255606457949064316350640822306383968063538710633512006321150063097470630475906301117065748060657480906574807065747880657475706574711065746220657449706574277065737160657263806570401065646500655668306544549065230390650487306487874064708390646255906457382064535810645174606449830066609600666096306660961066609440666091906660887066608340666076606660641066603070665963706658229066546160664975106642618066307500662213006615453066100030660789306606816066056920660483606603908067431470674314806743147067431410674313406743125067431100674308706743038067428870674259806742011067405010673849806735701067315360672882706726929067255870672501606724529067242900672412206723529067858230678582606785824067858020678577706785754067857360678572506785700067855980678539906784995067839340678258606780770067780930677641606775299067744900677416606773933067736560677344806773141068202990682029906820298068202930682028706820279068202660682024806820212068200980681991606819577068186860681752806815952068136660681224706811294068106570681033706809987068098160680979306809579068471440684714406847143068471420684714006847137068471290684711406847080068469660684679106846474068456450684454306843020068408260683946106838496068378360683759306837408068373410683727306837024068605770686057606860576068605760686057506860572068605620686054506860513068604150686025906859968068591810685813506856696068545710685323306852309068516320685138106851249068511590685108206850950068747710687477106874771068747710687477106874768068747580687474306874716068746360687451006874272068736200687273906871508068696390686843006867585068669580686672106866594068665130686646306866392068885570688855606888556068885550688855506888554068885490688854106888524068884650688837306888205068877670688716506886286068848920688394706883257068827340688253606882431068823900688238806882394068957970689579706895797068957960689579506895794068957930689578906895776068957250689564706895515068951950689475706894099068930120689224906891680068912310689107506891013068909370689093606891048069016170690161706901617069016170690161706901616069016130690160906901603069015820690154306901465069012540690095106900489068997220689915906898717068983690689824206898164068980580689810006898302069061240690612406906124069061240690612406906123069061210690611906906115069061020690607806906029069058950690570106905410069049220690455006904254069040210690393206903877069038380690379606903766069078590690785906907859069078600690786106907860069078540690784706907841069078340690782006907784069076780690756706907386069068290690639806906193069060710690598206905920069061020690621706906148069084360690843606908436069084340690843306908434069084390690844506908450069084500690844006908419069083620690828706908172069079450690777106907653069075610690752406907506069074880690753606907694069073280690732406907326069073490690736506907354069072640690715806907058069069930690699106906999069069800690693906906880069067720690669206906635069065900690657306906565069065470690657606906702069053770690537806905377069053720690536806905370069053900690541406905436069054490690544406905433069054130690538806905348069052840690523806905203069051750690516306905156069051540690513306905128069028270690282606902827069028290690282906902829069028240690281906902814069028100690280806902805069027930690277606902751069027090690267706902649069026260690262406902626069025840690266106902915068992840689928406899288068992910689929106899290068992890689928906899290068992900689928806899285068992780689926706899251068992300689920006899156068991300689912806899122068991420689917706899244068964120689641106896412068964150689641706896416068964040689639006896376068963670689636706896367068963630689635506896343068963250689630806896290068962760689627506896276068962730689628606896347068919280689192806891932068919360689193606891935068919330689193106891930068919290689192806891927068919220689191606891908068918940689188306891874068918750689186006891825068918330689187106891921068861140688611406886114068861140688611406886114068861130688611206886112068861140688611606886114068861000688608806886082068860740688606506886058068860600688604606886013068860260688605406886080068822380688223806882239068822400688224006882240068822360688223406882236068822490688225806882251068822010688216506882162068821590688215006882146068821390688214206882150068821360688214506882215068780470687804706878047068780470687804606878047068780480687804806878048068780430687804006878041068780550687806406878060068780510687804606878042068780390687803606878031068780320687803506878054068732710687327106873270068732680687326606873267068732740687327906873275068732460687322606873239068733420687341006873405068733890687338706873383068733850687337306873345068733680687336806873313,
    59832600598310905982837059827990598342405984671059864150598709505986838059852100598315805980272059741420596689205955020059238170588396505825933057129880560181405482619053652890532444505308999060814980608137306081147060811160608163406082669060841120608467006084445060830490608128006078751060732240606655306055598060271510599122505939571058409370574525605644025055479290551540105502328062052650620517206205005062049820620536606206133062071990620760406207417062063150620490306202823061980560619211406182315061573400612636206082750060021950592625205848411057791020575607405745932062867930628672106286592062865740628687106287461062882780628858206288420062875120628633506284551062802860627482406265787062431040621539306177101061085750604599505984268059321090591465905906412063732380637318906373101063730890637329106373694063742470637444406374309063736070637267906371209063674780636252806354305063340700630986206277301062219100617420506130171060949830608280506076537064717380647171506471673064716670647176306471952064722040647227906472175064717080647106606469958064668470646250006455243064379330641795706392426063533580632387706299625062809710627395506269902065425010654249606542488065424860654250706542545065425850654257406542493065421950654176106540919065382850653442906527984065131440649679906477312064514540643493906422705064132420640935006406847066425690664257906642597066425990664255806642474066423400664225606642192066420640664186406641386066396260663689106632392066230150661406106605125065961810659201106589613065879320658718406586493067391280673912906739131067391300673912306739109067390830673906106739031067389530673881806738541067377420673657106734734067315220672903306727053067254960672489106724492067240880672381006723442067874980678749806787498067874960678749306787487067874750678745706787428067873550678722506786953067862240678521706783715067813600677974706778552067775670677717006776962067767650677656906776242068246510682464906824645068246420682464406824649068246440682461506824556068244410682428106823957068230390682180006820069068174470681575406814556068136940681338306813187068129840681281806812547068527320685273006852728068527250685272206852718068526990685265906852588068524480685225206851842068506390684903406846907068438330684189506840523068395360683919406838995068387850683862706838408068656490686564706865644068656410686563906865638068656200686557706865497068653350686511306864661068633330686156806859254068559400685389406852514068515080685112106850885068506780685054306850364068773350687733306877329068773250687732506877325068773120687727206877196068770330687680506876344068749950687321106870890068675850686555806864212068632030686282906862656068625160686242506862312068868850688688306886880068868760688687606886877068868670688683406886769068866360688646006886103068850120688353806881620068788630687712606875952068751030687479206874623068744970687443306874371068919590689195706891954068919500689195106891952068919470689192306891873068917720689163906891370068905240688935206887796068855270688408306883090068823520688208006881941068818560688181606881777068964780689647806896478068964760689647306896468068964540689643206896395068963230689622506896027068954060689454906893400068916360689046906889669068890750688884306888717068886610688863206888591068998560689985806899860068998610689985606899843068998200689979706899769068997220689966306899540068991260689853506897742068965260689569106895084068946130689445706894400068943040689429606894386069009560690095606900956069009560690095506900953069009470690093706900918069008830690083906900750069004510690002306899437068985190689788406897420068970630689694906896901068967880689682106897005069013010690130106901301069013020690130106901300069012970690129106901279069012590690123406901183069010020690073306900356068997540689932306899015068988320689862906898345068984630689860806898561068990070689901006899016068990200689901306898996068989690689895306898944068989370689892506898897068988030689867506898498068981580689791606897760068976140689756406897564068975240689751606897594068966630689666106896658068966500689664106896631068966170689660906896604068966000689659606896584068965260689643506896306068960880689593806895838068957530689570106895657068956300689564806895718068935280689352206893509068934900689348306893484068934900689348806893480068934660689346206893460068934280689336106893264068931450689306306892987068929020689287106892871068928550689286706892943068893510688935306889358068893670688937406889380068893770688936406889341068893070688928906889279068892640688924006889208068891520688908406889005068889690688896806888956068889460688895106888994068861100688611106886113068861170688612206886127068861270688611506886094068860620688604606886040068860310688601406885989068859530688590506885839068858050688580406885798068857930688579306885823068812060688119706881177068811470688113106881127068811310688113506881136068811350688113406881132068811250688111306881098068810830688104606880986068809580688096106880956068809480688095606880994068744530687445506874458068744620687446306874462068744610687446406874471068744700687445306874420068743720687435006874344068743320687432506874332068743450687431406874244068742100687423506874290068697790686977906869780068697810686978106869780068697800686978206869786068697860686977706869759068697310686971706869713068697120686969506869665068696590686964806869611068695930686960506869636068647610686475706864748068647340686472706864725068647270686472806864727068647260686472906864735068647420686474006864736068647430686471706864656068646340686463806864626068646210686462306864629068591730685915106859102068590270685898806858978068589880685899906859003068590000685899406858987068589780685897606858976068589650685897706859022068590630685900906858884068588150685888106859003,
    61375300613753006137530061375310613753106137530061375270613752706137530061375390613754206137531061374960613748506137525061375820613728206136657061358680613602806136012061337350613154706127930062212270622122706221227062212270622122806221227062212250622122406221226062212350622123706221228062211970622118806221222062212710622101406220479062198030621992506219881062178610621585706212500063266740632667406326674063266740632667406326674063266720632667206326673063266800632668206326675063266500632664306326670063267090632650506326082063255500632562506325545063238470632207506319047063961300639613006396130063961310639613106396130063961290639612906396130063961360639613706396131063961110639610506396127063961600639599006395642063952050639524806395144063936590639204006389228064697550646975506469755064697560646975606469756064697540646975406469755064697600646976106469756064697400646973606469753064697780646964606469377064690390646904906468921064676610646620406463621065534520655345206553452065534530655345306553452065534520655345106553452065534550655345606553453065534420655343906553451065534680655337806553198065529740655294606552790065517870655051406548191066128370661283706612837066128370661283706612837066128370661283706612837066128390661284006612838066128300661282806612836066128480661278706612671066125280661247306612297066114750661033306608196066964610669646106696461066964610669646106696461066964610669646106696461066964620669646206696461066964590669645806696461066964650669644606696419066963890669629706696092066955260669456806692692067799020677990206779902067799020677990206779902067799020677990206779902067799030677990306779902067798990677989906779902067799060677988406779860067798560677977206779588067791580677841306776925068123900681239006812390068123900681239006812390068123900681239006812390068123900681239006812390068123920681239306812390068123870681239906812369068122020681216606812140068117460681107206809755068349880683498806834988068349880683498806834988068349890683498906834988068349870683498706834988068349920683499306834989068349830683500906834997068348160683472406834666068343960683388306832805068499710684997106849971068499710684997106849971068499710684997106849971068499710684997106849971068499710684997106849971068499710684997206849971068499520684989906849790068495130684910806848245068560690685606906856069068560690685606906856069068560690685606906856069068560690685606906856069068560690685606906856069068560700685606706856069068560890685608006855996068556940685532306854577068608550686085506860856068608560686085606860856068608560686085606860856068608560686085606860856068608550686085506860856068608560686085506860855068608570686083206860753068605270686023706859653068645310686453006864529068645280686452806864529068645290686452906864529068645290686452906864529068645290686452906864529068645300686452706864529068645360686449606864428068643390686416706863835068670100686701706867022068670250686702406867022068670220686702206867022068670220686702106867020068670200686702006867020068670200686701906867020068670240686700706866984068669680686691006866805068697770686975206869730068697200686972406869729068697310686973006869729068697300686973206869734068697350686973506869734068697340686973506869734068697320686973706869739068697300686977606869906068722590687224906872239068722320687223206872235068722410687224206872237068722140687219306872176068721670687216806872171068721730687217106872172068721800687217606872171068722070687232006872587068732680687327506873282068732880687329206873296068733050687330606873295068732540687321706873191068731870687319606873203068732000687320406873201068731660687316906873200068732620687340606873732068736070687360606873603068735920687358406873579068735830687358706873585068735660687354506873525068735090687350306873501068735040687351506873509068734460687345506873502068735500687371606874107068721660687216906872171068721690687216206872148068721180687209406872077068720730687208106872091068721000687209306872066068720050687198406871992068720080687201006872004068720380687221606872626068703130687029106870274068702710687027706870283068702790687026606870245068702070687018206870171068701850687020006870198068701620687015806870158068701000687006706870084068701980687036206870700068676660686762906867595068675800686758406867592068675990686760006867598068675920686758206867567068675380686751706867503068675040686750906867506068674820686746306867472068675610686770006868017068638410686380406863772068637570686376106863766068637660686376306863765068637780686378506863775068637280686368606863659068636660686367106863669068636730686367006863673068637330686386306864165068607010686065206860611068605970686060906860624068606310686062906860626068606240686062306860620068606080686058906860560068605090686049306860500068605170686050906860509068605920686071006860966068558750685584106855807068557820685577606855777068557790685577906855777068557700685576906855776068558020685581106855786068557010685567906855686068556580685564106855657068557420685586806856116068495280684954106849536068494820684942506849378068493570684936406849375068493810684937906849376068493720684937206849374068493820684938406849383068493620684928306849222068493330684945906849660068452400684520406845166068451310684511606845108068451050684510506845107068451080684510806845107068451080684510806845108068451050684510006845103068451230684509606845053068450800684519206845409068406510684057806840514068404910684050606840526068405360684053306840528068405250684052606840527068405280684052706840527068405270684052806840528068405240684053106840535068405210684056806840735068354870683547106835443068353840683533806835302068352870683529206835300068353040683530306835301068353000683530006835301068353010683530006835300068353020683530106835298068352970683532206835456,
    21084680210848602108506021084630210835702108293021084880210889302109130021083900210667902104555021024060210199902102335021030250210315702102847021022400210229102103255021044890210379002103418020000000200000002000000020000000200000002000000020000000200000002000000020000000200000002000000020000000200000002000000020000000200000002000000020000000200000002000000020000000200000002000000020000000200000002000000020000000200000002000000020000000200000002000000020000000200000002000000020000000200000002000000020000000200000002000000020000000200000002000000020000000200000002000000020000000200000002000000020000000200000002000000020000000200000002000000020000000200000002000000020000000200000002000000020000000200000002000000020000000200000002000000020000000200000002000000020000000200000002000000020000000200000002000000020000000200000002000000020000000200000002000000020000000200000002000000020000000200000002000000020000000200000002000000020000000200000002000000020000000200000002000000020000000200000002000000020000000200000002000000020000000200000002000000020000000200000002000000020000000200000002000000020000000200000002000000020000000200000002000000020000000200000002000000020000000200000002000000020000000200000002000000020000000200000002000000020000000200000002000000020000000200000002000000020000000200000002000000020000000200000002000000020000000200000002000000020000000200000002000000020000000200000002000000020000000200000002000000020000000200000002000000020000000200000002000000020000000200000002000000020000000200000002000000020000000200000002000000020000000200000002000000020000000200000002000000020000000200000002000000020000000200000002000000020000000200000002000000020000000200000002000000020000000200000002000000020000000200000002000000020000000200000002000000020000000200000002000000020000000200000002000000020000000200000002000000020000000200000002000000020000000200000002000000020000000200000002000000028593010285927902859256028593070285943402859510028592760285879302858510028593940286143502863975029028720296860002942899028932070289130802895487028942180289394702894528028943920289350702897231043380210434077104346371043532570435567004358356043686690438327404393847043811180434219004293044042455750423560404238959042477570424827604247217042475110424758204247438042474710424772304246854049324530493318704934682049365210493716704937893049406890494465404947532049440650493352704920220049067440490365704904714049073990490755004907232049073320490736204907321049073220490739004907131055425080554192305540740055393040553880505538246055361140553316305531076055336010554168005552785055651430556814805567112055645140556436905564678055645960556457405564619055645970556447805564712060824350608242006082388060823500608233806082323060822600608216906082103060821840608243106082751060830890608316906083141060830720608306906083076060830750608308906083111060831220608310106083083063044560630445506304453063044560630446706304481063044990630450606304508063045000630448806304474063044590630445606304457063044600630446106304459063044600630446906304465063044380630442706304429064699260646989306469823064697230646967006469640064696240646962306469619064695870646953506469473064694120646939906469406064694160646941206469407064694090646941306469415064694170646942006469411065911450659151306592328065935950659438206594984065955520659584806596056065962360659632706596386065964200659642006596415065964360659648406596517065965040659646706596437065964430659648006596501066531080665326106653665066545390665540106656321066574100665800906658420066587410665886706658928066589660665899506659025066590530665905906659061066590590665905206659058066590660665903606659014067132030671318806713192067133360671363406714169067153570671663706718008067194670672002206720204067201870672017606720190067202180672022806720231067202290672022706720249067202420672013406720089067682360676824006768245067682360676820906768168067680980676804206767988067679320676790606767896067679040676792106767931067678980676783306767797067678070676780406767809067678030676774706767698067870720678707406787077067870710678705606787036067870150678701106787014067870240678703006787032067870230678700606786985067869650678696206786971067869640678692206786905067869130678687506786820068006300680062806800625068006220680062306800625068006270680062606800623068006160680060806800598068005790680056006800542068005270680052806800535068005300680050006800469068004390680040706800368068106120681054506810411068102490681020606810219068102630681028306810291068102930681029506810299068103060681031106810315068103150681031206810315068103110681028206810269068102750681026406810295068148690681485706814833068148040681479706814801068148150681482706814837068148470681485106814854068148590681486606814871068148660681485806814886068148580681466106814538068145740681458106814574068186540681870706818818068189610681901206819010068189450681886506818775068186750681863006818606068185840681856306818541068185220681851906818526068185210681849106818476068184810681847606818498068167140681668306816647068167100681691306817252068178800681845806819040068196660681994806820104068202300682033206820427068204950682049106820511068204870682030406820191068202280682023406820220068168750681690106816930068168680681671406816619068168940681755606818428068194810681995406820180068202660682027706820273068202620682026206820263068202630682026406820266068202620682025406820282068162600681628606816315068162580681611406816020068162650681686806817669068186510681911106819348068194550681946906819459068194440681944506819440068194460681947606819387068191630681914506819184068143380681436206814393068143660681426906814217068144440681495106815621068164640681689106817142068172880681731506817305068172810681728006817283068172810681728006817293068173330681734106817223,
    20640430206404302069373020764190206404302030346020092090206404302193497022710030206404302000000020000000200000002000000020000000200000002000000020000000200000002000000020000000200000002000000020000000200000002000000020000000200000002000000020000000200000002075473021427400200000002000000020000000200000002000000020000000200000002000000020000000200000002000000020000000200000002000000020000000200000002000000020000000200000002000000020000000200000002000000020000000200000002000000020000000200000002000000020000000200000002000000020000000200000002000000020000000200000002000000020000000200000002000000020000000200000002000000020000000200000002000000020000000200000002000000020000000200000002000000020000000200000002000000020000000200000002000000020000000200000002000000020000000200000002000000020000000200000002000000020000000200000002000000020000000200000002000000020000000200000002000000020000000200000002000000020000000200000002000000020000000200000002000000020000000200000002000000020000000200000002000000020000000200000002000000020000000200000002000000020000000200000002000000020000000200000002000000020000000200000002000000020000000200000002000000020000000200000002000000020000000200000002000000020000000200000002000000020000000200000002000000020000000200000002000000020000000200000002000000020000000200000002000000020000000200000002000000020000000200000002000000020000000200000002000000020000000200000002000000020000000200000002000000020000000200000002000000020000000200000002000000020000000200000002000000020000000200000002000000020000000200000002000000020000000200000002000000020000000200000002000000020000000200000002000000020000000200000002000000020000000200000002000000020000000200000002000000020000000200000002000000020000000200000002000000020000000200000002000000020000000200000002000000020000000200000002000000020000000200000002000000020000000200000002000000020000000200000002000000020000000200000002000000020000000200000002000000020000000200000002000000020000000200000002000000020000000200000002000000020000000200000002066633020229600200000002000000020000000200000002000000020000000200000002000000028183650281836502815229028110830281836502838191028506280281836502742197026965940281836503134957036705940398212704095772040459110398138903973766039847390398153803980971039817670398153803981498050637870506378705064960050665110506378705056371050517190506378705092277051093340506378704945369047450210462849504585988046046380462877204631623046275190462871604628928046286300462871604628731052473430524734305246942052464120524734305249879052514690524734305237601052317690524734305287834053563410539618505410720054043430539609005395115053965190539610905396037053961390539610905396104059882340598823405988294059883730598823405987854059876160598823405989694059905680598823405982166059719010596593005963752059647080596594505966091059658800596594205965953059659370596594205965943062083330620833306208315062082920620833306208446062085170620833306207899062076400620833306210137062131870621496206215609062153250621495806214914062149770621495906214955062149600621495806214958064004260640042606400432064004390640042606400390064003680640042606400561064006430640042606399862063989090639835406398152063982410639835506398369063983490639835506398356063983550639835606398357065401530654015306540152065401520654015406540160065401630654015406540133065401210654015406540241065403880654047406540505065404910654047306540471065404740654047406540475065404720654046906540469066106620661066206610661066106590661065706610654066106530661065806610667066106720661065806610621066105590661052306610509066105150661052306610524066105220661051906610517066105290661054106610541066798920667989206679896066799060667991206679914066799120667991006679910066799100667990706679900066798890667988206679879066798790667987906679878066798840667989606679907066798530667979606679797067345600673456006734547067345080673448006734467067344720673448906734511067345240673449806734431067343170673425006734225067342370673425906734269067342260673418906734197067341350673403606733979067563950675639506756380067563330675629706756276067562630675625806756249067562330675621906756202067561780675615706756134067561140675611706756129067560580675597306755959067559860675597206755893067720850677208506772088067720900677208306772063067720220677198406771946067719030677188506771883067718850677187206771838067717880677177306771785067717440677169706771708067716570677156906771523067834800678348006783470067834380678341006783388067833650678334906783333067833080678328806783267067832380678321706783198067831740678315506783136067831070678309006783079067830060678292906782888067886660678866606788657067886250678859806788577067885550678854106788525067885010678848306788464067884420678843006788422067884050678837206788322067883060678831606788283067881940678813506788105067932150679321506793197067931410679309806793072067930560679304806793036067930150679299706792979067929580679294506792935067929180679289406792861067928430679284306792822067927470679268706792662067956130679561306795602067955680679554006795520067955020679549206795479067954590679544306795427067954080679539706795388067953720679534806795313067952980679529906795274067952180679517506795135067957870679578706795782067957630679574606795730067957110679569806795685067956660679565006795632067956100679559706795588067955740679555006795515067955020679550206795473067954390679541106795346067951660679516606795158067951310679510906795092067950740679506106795046067950260679501206795003067949940679498706794979067949590679493206794897067948830679488306794856067948150679478506794737067936800679368006793678067936690679365806793644067936230679360606793589067935690679355506793544067935340679353206793534067935280679350806793472067934560679345706793428067933800679335406793327]

/-- `json_database/prb96_ne.json`. -/
def prb96_ne : PackedFile where
  temperature := [9930123, 9947732, 9969917, 9984530, 10000020, 10017629, 10030123, 10047732, 10069917, 10084530, 10100020, 10117629, 10130123, 10147732, 10169917, 10184530, 10200020, 10217629, 10230123, 10247732, 10269917, 10284530, 10300020, 10317629, 10330123, 10347732, 10369917, 10384530, 10400020, 10417629]
  density := [11369897, 11400000, 11430103, 11469897, 11500000, 11530103, 11569897, 11600000, 11630103, 11669897, 11700000, 11730103, 11769897, 11800000, 11830103, 11869897, 11900000, 11930103, 11969897, 12000000, 12030103, 12069897, 12100000, 12130103]
  levels := [
    64313600643370906436453064405120644397406447989064542630645980406466065064753500648330306492339065060410651794006531439065518560656937406588836066175820664139406666562067007050672666106752631064144400641615306418172064211690642375006426782064315630643573306440356064474260645356706460378064708330648011506490691065065720652033106536042065596690657978006601951066334660665811506682868063944170639547606396777063988320640063806402709064059580640886106412152064169470642108706425978064335470644011906447538064589000646886306480154064973260651270106530742065570380657763006598311063820410638289506383863063852900638656406388122063905810639280606395427063991550640233706406222064122460641741306423217064321160643997806448971064627480647536706490542065121970652866806545145063692080636982906370526063715850637252306373621063754540637711406378939063817600638428306387165063917010639569106400113064068890641287406419699064305170644068806452809064692720648121606493087063560580635644406356928063576670635829606359028063602750636140806362635063645680636633706368376063715960637442006377540063823930638671906391641063995430640711206416148064276040643526506442785063456990634597806346284063467710634725106347856063487700634954906350460063519350635326906354794063572120635935006361727063654380636879506372684063788500638478606392022064008510640639906411789063539970635409806353997063539540635409906354262063544650635467906355024063555880635612106356829063579180635884206359932063617990636351706365439063687190637200006375880063806180638365406386615064243420642398406423438064226930642221706421770064212330642082506420375064198860641958406419239064188540641865606418492064182850641816906418145064182450641838206418541064188180641907206419331064667080646616406465652064649310646437106463882064632800646281506462340064617940646142706461037064605780646029906460054064597920645962406459463064593330645929106459243064591770645913106459084064922750649170806491019064902810648985406489340064886130648810306487643064870730648666606486289064858160648547806485180064848830648470406484517064842890648414506484019064839090648386206483820065044750650400106503188065023470650196206501450065007690650029206499757064991310649874006498342064978470649753506497282064969620649673206496558064963710649623506496105064959660649588106495796065050520650446606503787065030410650258406502069065013910650089806500376064997330649931106498925064984530649813206497854064975240649730006497114064969170649679006496673064965500649647406496397064982500649747806496921064962750649573606495198064944890649397306493499064928710649241706492042064915760649123806490956064906160649039706490250064900480648989206489797064896770648955506489423064810300648050206479928064791420647858006478077064773850647684806476368064757490647528906474881064743990647407006473779064734350647321706473055064728700647273606472620064724840647238306472275064665160646600206465470064646960646412306463644064629740646243406461958064613500646088306460448064599660645965706459363064590310645881906458619064584090645828906458175064580630645800506457942064497140644925006448698064479650644746706446998064463180644578106445305064447070644425106443811064433620644310606442842064424740644223306442073064418790644172406441597064414560644135206441240064301700642972606429181064285270642810506427628064268930642638606426040064254870642497906424575064241500642387706423647064233670642316806422996064227810642265306422583064224330642224306422034064171960641682806416377064157700641531106414800064142110641385006413478064129210641251006412178064117360641142206411222064109990641083006410694064104190641024306410266064102240641003506409814064005860640049406400033063993830639895606398412063980990639794606397346063968530639681506396614063963370639616406395874063953610639513906395259063951400639482306394741063948310639491606394994063798590638013706379644063789280637855106377968063780090637812006377210063768040637726706377231063771860637721506376796063758720637557206376039063761470637564506375399063756540637611806376610063662070636672706366214063654540636511106364502063647770636506006363947063635980636439006364464063645720636473306364230063630350636268306363379063636370636301206362659063630220636373606364501063517350635251306351977063511720635086406350227063507500635121706349887063495990635074106350930063512000635150306350909063494280634902106349959063503760634962106349155063496320635061106351665063352830633635506335794063349350633466806334000063348040633548006333904063336850633522506335545063359990633646306335766063339590633349006334704063353010633439806333803063344100633569006337073063236110632489006324311063234160632317606322486063234910632431506322564063223940632421606324630063252140632579106325022063229840632247006323880063246040632359806322910063236090632510306326719063071590630873206308127063071790630698006306259063075450630857806306581063064810630869906309245063100140631075106309879063075150630693906308624063095290630837506307558063083870631018206312127062864330628837406287738062867240628657506285814062874560628875106286445062864320628915106289862062908630629180206290801062880260628737106289404062905360628919606288217062892100629138406293743062727800627496506274308062732500627313406272348062742230627569206273181062732260627627406277095062782480627932006278235062751900627448306276744062780260627656406275477062765780627900106281633062583080626075106260072062589680625888706258073062601960626184906259122062592270626262506263562062648770626609006264914062615820626082006263325062647650626317306261972062631870626587606268797062418570624459206243888062427310624269106241846062442510624611206243139062433130624710906248177062496760625105006249771062461140624528906248069062496900624795006246620062479650625095406254204,
    65367650653926106541880065458760654970106554466065622460656916006576915065885000659841206609552066268350664225806659699066854950670706506730618067638370679017306817171068532420688051706907810065200600652179206523649065265100652925506532721065384210654347706549141065575990656490006573298065865500659839506611772066317610664869606667444066951010671792306742185067758530680204706828643065005930650172906503019065048570650645106508652065124280651570606519427065251750653025406536057065451690655334506562589065765710658869506602372066231660664105806660671066889220671186506736100064887520648956406490387064917300649312006494808064975330649998506502706065069930651096806515488065225260652884006535906065466620655618206567020065836900659822206614295066379740665786706679495064771120647777006478393064793680648036006481587064835680648533906487353064904780649331006496665065019390650659706511965065202590652751606535774065485590655981206572396065913300660761806625603064652730646595606466548064673150646796106468795064701770647138106472753064749030647686406479176064828680648619806490013064958950650110206507094065163580652448906533726065478000656000106573744064571420645792306458536064592440645977406460427064614790646236406463402064650890646660806468385064712500647384906476799064813520648543106490156064974930650392606511183065223360653217206543267064561860645662406456921064572010645736606457568064579440645830706458754064595250646027606461195064627330646416406465815064684370647086206473724064782390648225106486837064940550650059706508150065009230649937306498172064969730649625006495579064947130649415806493783064932260649267106492447064923420649207706491966064920390649213606492418064931240649388206494875064966500649842406500650065343160653206006530263065284640652742406526488065253350652457306523838065228930652224606521642065208520652030306519915065194610651904106518757065186450651865506518645065187710651911506519617065565340655387806551702065495480654838306547378065461110654522606544375065433550654268406541988065411020654053706539976065392570653880006538427065379930653768006537431065371970653709206537110065674600656457206562169065597920655852006557444065560970655517706554344065533250655259306551870065509470655029306549673065489430654847606548050065475320654718306546874065465540654636806546156065682920656538206562943065605080655919206558088065567460655582706554959065539080655318106552463065515360655087506550252065495080654901206548557065480150654766606547390065470680654680206546542065628120656004606557696065553320655404606552973065516770655077906549904065488090654806406547357065464250654572106545074065443280654382906543347065427530654238806542108065417910654154206541331065484710654633206544495065426120654157206540657065393990653843006537599065365970653579406535067065341440653339006532693065319410653147206531034065304640653004106529734065294960652931006529067065357040653402806532642065310660652999306529154065281130652718306526358065253490652451006523804065229160652215106521542065208040652012906519578065191350651887906518589065181900651790706517703065204620651913006517891065165680651581906514941065137510651306306512370065112410651030706509617065087680650796106507417065068380650620206505668065051210650471106504405065041350650391506503638065019960650096006499945064987900649809906497336064962860649559506494872064938360649307406492398064915340649085006490273064895860648904006488594064880790648766906487365064871010648690406486695064889690648810606487272064862370648553206484883064840040648327606482553064816360648097706480363064795770647897506478400064776810647717106476738064762610647593606475658064753750647520906475040064724840647183406471171064703130646971906469170064684650646789906467280064664880646596506465431064647380646427206463819064632160646278406462433064620390646175306461545064613180646112806460994064576200645720306456816064562730645583206455491064550340645457606454198064537660645338806453036064525640645217006451855064515470645131506451050064507230645056506450477064503310645015306450025064528350645253906452219064517900645149406451228064509160645069706450471064500950644977306449560064493310644908706448900064486430644838206448246064481310644795506447828064477180644762906447614064516760645149706451309064510750645091306450726064505310645045706450320064500670644989906449723064495250644943906449366064492030644902406448892064488310644881906448760064486250644854406448519064514010645135106451350064513760645135606451268064511940645122406451164064511000645113906450968064507250645080106450845064508230645079406450609064505280645078206450849064506670645056106450464064512000645124106451372064515820645166306451645064516570645176106451756064518250645201206451845064515690645176106451888064519650645204306451820064517250645216806452326064521090645198606451837064509100645107906451397064518670645208906452171064523040645251206452584064528420645323706453075064527540645310906453352064535710645379906453523064534080645411806454402064541370645399006453768064505400645086906451422064522180645261906452827064531130645345106453622064541170645477506454619064542400645480106455192064555880645600706455662064555230645656906457012064566860645650806456195064502930645072806451435064524470645296606453256064536430645406806454303064549550645578506455634064552170645591406456402064569140645745806457070064569140645818206458730064583630645816506457791064500300645057606451448064526880645333206453709064542040645471906455023064558410645685506456708064562510645709106457683064583190645899606458560064583870645989006460550064601400645992006459482064497290645040306451461064529610645374706454223064548400645545906455840064568470645807006457928064574260645843006459138064599150646074306460254064600610646183106462617064621580646191406461403,
    65965040659899606602002066068640661106306615523066218610662794206635550066478000665889506671681066909970670676306724022067511620677511806801443068388110686589706890503069246110695131906978423065822500658420606586562065903520659362206597107066020970660691806612970066227370663159806641774066570840666986106684063067062770672599006747929067795840680426606828871068629790688968706916791065645320656580906567344065697900657190206574175065774900658073206584828065914910659755806604474066148040662383406634186066502500666465206681069067054960672600906748256067799320680528006831388065548930655572406556732065583790655984406561471065639010656619706569082065739470657838106583432065911090659787506605740066182750662953306642380066618370667839606696611067235020674587606769642065449210654549106546182065472890654826206549336065509480655250906554504065578800656093506564434065698880657473906580427065896650659804306607613066221730663503506649658066716100669033206710719065334050653375706534184065348810653547406536083065369470653793106539243065412710654316806545424065488860655202306555770065618640656745406573933065839570659296806603417066195860663378306649697065254580652568106525958065264300652684806527291065279170652856706529408065307500653205806533616065359530653811506540737065449730654890206553527065607760656734806575111065875440659869906611478065215980652144106521334065213070652135906521449065216100652181206522097065225930652314306523839065248880652585206527040065290540653100706533352065370490654050206544769065520270655895706567345065387700653693706535157065332920653226906531505065307910653045406530212065298840652966106529511065294650652949006529568065298500653021606530699065314960653229206533384065355220653779706540853065557290655268106549634065463500654451806543157065418870654120106540642065399680653949106539050065385370653823106537996065377580653763906537558065374780653750406537674065381890653880506539750065679690656423406560409065561480655372706551958065503980654955306548812065479070654730306546737065460500654562506545262065447870654443606544115065437610654353106543337065431680654309106543095065740960657009406565897065610950655831406556277065545300655368706553009065520910655140906550778065500520654955406549088065485250654813106547765065473250654699306546632065461270654576406545387065744440657050806566325065614280655853306556389065545420655366306552982065520770655137906550734065500020654951706549068065484860654808806547722065472210654683806546448065458920654545306544935065710530656736106563400065586770655583706553714065518650655093306550175065492550654861406547994065472020654668706546234065456140654514506544709065442160654388206543505065428920654240506541846065625440655949006556178065521570654967406547741065459390654499606544237065432680654247306541685065407820654017606539629065389420653841506537910065373280653693906536540065359570653551006535026065545630655207906549394065461060654401806542307065405610653959206538783065376930653685606536027065349760653426506533620065328270653226006531714065310290653061906530245065296140652919106528822065441010654218906540102065374390653567506534194065326620653173006530869065296890652876406527847065267470652605706525406065244430652382606523291065224560652187006521426065210080652062406520149065297880652831406526757065247900652345006522245065208220651981806518892065178580651707406516193065149120651406306513348065124400651178706511165065104030651002406509686065089400650857406508368065189290651775306516507065148700651370406512630065113510651042706509576065086640650790806507037065059180650516906504458065034770650286206502357065016800650127506500906065002430649989906499690065049470650410006503185065019220650098406500105064990680649834306497663064968440649617206495462064946250649407506493519064926770649215706491760064912010649075406490360064900040648972306489429064925910649205906491505064907620649020306489650064889310648841106487936064873990648699006486558064860010648560806485245064848050648448806484175064837740648354506483359064830650648287306482723064888590648850706488140064876430648727206486913064864620648610306485759064854180648515506484865064845130648426606484026064837290648352106483324064830730648289906482751064826020648248806482365064884390648823506488023064877320648751006487289064870080648681306486633064864020648623406486076064858830648572606485566064853820648525106485127064849950648489406484805064847490648468306484591064913020649119806491099064909740649087506490757064905730649045406490368064902730649018406490086064899890648992406489854064897600648968706489625064895770648952406489458064894080648937206489338064948830649481206494746064946740649462006494554064944390649435506494292064942430649420306494147064940660649402406493995064939420649389806493861064938290649378806493742064937190649369706493673065006230650058306500545065005100650049406500484065004750650045706500427065003890650040306500421065003480650030106500290065002780650027406500265065002170650019506500208065002530650024106500201065078770650787606507873065078830650791306507974065080990650816506508176065081510650823406508345065082820650822706508237065082760650832206508347065082790650828106508370065085000650850206508439065126540651267806512698065127370651279806512906065131190651324106513280065132620651339006513564065135060651344606513471065135430651362306513670065135880651360606513745065139320651394306513865065177170651776806517812065178820651797506518132065184400651862106518689065186790651885506519095065190440651897806519019065191250651924106519312065192150651925006519442065196900651971006519617065234710652355306523624065237290652385906524073065244870652473506524837065248370652506706525381065253380652526606525324065254710652562706525725065256120652566606525917065262340652626506526154,
    66558910665761906659864066639130666779706672377066793740668516506691202067008630671139706723732067420180675868506777809068060380682913406854659068936940692743006963343070059260703063507056724066479040664932906651168066544520665759306661299066669780667170806676674066846020669314506703232067183970673219906748026067714990679090206812520068457820687467106905698069442830696899306995082066378180663886106640188066425070664471106647314066513340665472506658341066640840667011606677370066886020669879406710463067279440674269306759386067853770680815806833029068665770689128706917376066311240663191406632904066345870663617206638048066409730664348106646206066505080665488406660269066689060667671606685645066991740671085506724302067454980676425506785070068152930683998906866067066242770662481006625455066265020662747206628625066304580663208606633930066368350663962706643152066490970665451306660710066702440667876006688836067050470671958906736080067606960678130406803791066154610661579506616182066167880661733506617974066189950661993806621061066228750662456206626678066303130663370606637624066437320664936006656199066674200667758806689336067075270672343606741372066061520660639606606702066072090660766506608174066089300660958206610315066114730661260906614184066169870661940206622150066265950663082306635967066443510665198506660935066750940668774406702283065972650659719606597197065973270659749006597679065979530659819806598493065990260659961906600424066018570660322806604771066071850660962206612697066178490662267906628365066374590664592106655984066105700660989006609177066081860660741206606630066056310660497006604450066039010660340706602876066022720660198206601741066015810660190706602582066039090660531406607143066104350661385706618325066305910662946406628284066266550662538006624076066223430662107106619872066183810661724006616020066142270661279106611445066099810660912406608482066079490660777906607746066080200660878206610175066467790664547406644120066422460664072406639076066367520663503506633483066316340663013306628439066259000662388006621904066195660661810506616822066152700661422106613229066120170661134706610966066557500665438906652949066509170664926506647498066450320664317706641422066392370663752206635637066328300663055006628251066254420662359006621941066199480661844006616948066151250661386406612705066568620665550106654055066520050665034306648579066461270664425206642422066401210663842506636572066336880663127406628878066260270662408506622311066201110661845606616880066149310661348206612136066529660665165206650276066483500664676206645013066424950664058406638796066366280663494506633094066302860662794206625529066225260662053106618749066165780661496406613354066112590660973706608234066411940663997106638682066368670663537106633733066313800662957006627831066256870662409506622395066198140661760106615290066123700661037906608566066063570660478906603212066010670659945006597906066306330662943706628190066264640662504906623489066212180661944206617708066155910661412006612525066099990660787006605619066027370660087006599130065968710659537606593937065919170659032606588768066179600661683806615630066138940661245706610893066086740660699806605431066034780660187106600149065977510659585706593856065911790658933506587638065855010658396206582469065805420657911506577652066016070660055506599468065979570659671106595333065933020659166106589977065878140658633306584865065827090658084206578889065764150657471706573148065711610656970106568290065664950656517106563800065895110658847506587380065858530658460706583252065812920657972906578144065761070657466806573239065712050656949706567697065653820656382506562358065604410655907606557753065560510655483106553583065716690657073406569739065683400656719906565968065642020656278606561323065594320655814106556845065549640655345806551941065500100654863306547295065455740654436006543223065417840654068706539599065506350654982806549008065479260654705806546102065446780654351806542322065407830653973306538699065372740653619006535067065335700653255406531583065302720652929806528434065274450652663406525790065395560653893906538306065374550653677206536028065349280653401506533037065317570653093206530150065291030652836006527573065264380652563406524873065239020652320606522545065217180652112406520568065316740653125306530819065302220652973806529208065284260652777406527073065261810652566006525143065243740652384106523259065224440652201306521607065209840652057206520121065194770651916606518900065278070652749306527211065269020652666706526383065259130652552206525138065246360652422406523861065235360652333506522999065223890652210906521847065214550652134506521175065207670652062606520449065278710652772106527553065272950652707606526838065265160652629906526133065259140652562606525357065251710652506306524835065243970652422906524101065238650652372606523587065233520652318406523097065310810653101906530936065307960653068006530568065304290653031506530178065299930652990206529799065296100652948806529380065292170652907406529014065290230652890106528829065288630652873506528632065376340653756006537492065374300653740706537404065374100653737906537280065371510653721506537208065370560653715406537162065369570653706406537056065367280653676906536876065368040653668506536609065420830654199506541931065419150654194706542011065421050654212906542061065419780654213706542185065420630654232606542408065421430654243606542464065418620654201906542251065420740654195506541904065467950654669206546633065466640654675606546890065470790654716006547125065470920654735206547457065473670654780506547965065476380654812806548193065473020654758106547945065476570654753806547513065521470655202806551974065520600655221906552433065527300655287706552880065529010655327706553448065533940655403106554281065538820655459506554704065534820655390106554415065540010655388206553887,
    66832920668484406686970066905980669389406697694067037600670934706715873067257800673412006743628067597890677489906792244068184490684147406867344069044840693574306970993070241180706600507094699066745000667580806677581066806090668338406686607066917640669650706702035067104220671748606725558067393290675224906767120067896480680943906831694068638560689112806922002069686080700566307033067066634230666442406665752066680260667014306672639066766510668033106684601066910720669653006702792067135530672371406735468067533610676907906786779068126710683492006860279068986720692964106955420066561270665692606657961066597370666142206663438066666970666967506673118066783270668272706687796066965750670491806714618067294600674249406757194067789550679789706819623068526060687956506904274066483920664897806649702066509510665217706653685066561450665838006660945066648170666809506671900066785770668499306692518067041230671431406725833067432160675865006776527068037750682648506850059066401650664052406640932066416390664237106643311066448680664627706647882066503030665236606654794066591490666342206668519066765020668352706691523067040160671547606728966067497500676761406787296066361170663637906636694066372110663769706638283066392530664016606641247066429140664434406646024066490400665201406655594066612950666638506672266066816720669042806700859067173070673172006747823066309410663104606631175066313780663155606631767066321560663257606633120066339810663470406635579066373240663896106640843066441250664718606650736066565520666215506669000066799800668985606701268066444840664387106643226066423540664170506641076066402690663967006639090066384080663799306637668066373010663698506636697066367580663720306638011066398330664188506644617066494450665413006659881066655990666456606663482066619700666076706659515066577820665640806655006066532160665197506650787066489840664726806645312066429610664160206640670066401870664034306640893066422330664392306646401066850750668378306682414066804890667895106677342066750890667327506671384066688720666702006665155066623300665967306656551066522930664952706647375066453160664419506643330066424700664217506642348066960820669471806693247066911540668947306687708066852120668317406681023066781460667602406673882066705730666738506663584066583770665492106652114066492110664740806645811066439750664282306641897066979180669654806695089066930290669137406689629066871430668509506682923066800130667787606675713066723240666908006665256066600120665642806653434066504290664855706646834066448540664351106642270066955760669429206692917066909750668942506687800066854880668357406681534066787970667679106674775066716400666866706665134066601350665671106653901066510270664924006647624066457170664435806643025066861900668508106683884066821820668081606679382066773440667566606673880066714620666965506667850066652180666271606659645066552470665216706649590066470080664541806643943066421870664096006639729066763020667528206674183066726240667137506670063066681820666661006664924066626750666106206659481066570590665482406652151066481040664527206642972066404380663891006637657066360380663480706633547066631380666220206661167066596930665853106657333066556270665418906652630066505240664900006647518066453530664339906641084066376060663509306632984066306800662926906628059066264810662528006624041066456370664476906643795066424070664133006640239066386920663737606635927066339260663243406631014066292100662762606625683066227640662058306618709066168520661560506614315066127940661161006610281066319960663117006630256066289620662795906626936066254680662420006622801066209260661962006618390066165570661497906613259066108410660904806607448066057440660448006603164066018360660080606599527066119600661127106610507066094140660855006607650066063310660517506603886066021120660082606599618065980280659673406595324065933680659190906590551065889790658789606586858065855670658454606583430065878730658725906586563065855530658475206583930065827890658186506580882065795050657841706577334065760210657502906573964065725050657141306570384065691790656831806567464065664000656556106564645065740570657356406572996065721630657149806570814065698620656909306568272065671100656617306565238065641610656339606562582065614050656054206559774065588380655813706557430065565510655591206555251065627790656239906561971065613480656084706560323065595910655899806558370065574920655679706556122065553750655480606554164065533350655274806552190065515020655100606550531065499460654949906549018065552350655498406554701065542900655396306553627065531650655279906552416065518850655146506551037065504980655011606549756065493100654895906548588065481280654782206547551065472160654696106546678065532350655305806552886065526540655246406552255065519540655170906551450065510900655080706550523065501650654987706549587065493150654913906548922065485660654832406548136065478910654775706547648065542650655419806554090065539120655377206553641065534810655336806553255065530780655290506552722065525780655250106552393065521850655205006551965065518430655174906551647065514380655130606551237065596210655956306559540065595290655950706559461065593820655932106559266065591960655914006559084065590180655895106558871065588190655877606558699065586080655858106558583065585500655850606558453065645780656455206564516065644630656442606564394065643660656435706564352065643200656425206564177065641960656418806564118065641220656410506564033065640540656403706563936065639090656394906563967065699400656995306569896065697800656971406569692065697190656976806569820065698260656973606569632065697450656980906569753065698100656981306569747065699020656989506569668065696330656976306569860065760350657609206576012065758240657572606575716065758050657592006576035065760860657597106575832065760530657620006576159065762750657630206576242065765490657655306576183065761400657637106576559,
    67102550671150506712941067154750671800706721105067261370673081306736441067456060675370606762489067748930678645406801550068267920684835706871449069078090693869606971197070207710706264107106666067003240670141106702658067048520670703906709718067140810671813906723016067309410673794306745555067563590676644706779603068015910682044506840718068725690689968706928417069723880700968507049107066878140668869306689704066914670669322006695371066988910670217006706102067124640671808306724220067330080674124106751953067698400678527806802000068281720685054206874521069114320694296906976590066795730668031606681171066826510668411806685921066888870669165206694962067002930670500206710167067176270672463806733740067489270676211406776497067989280681817006839019068712800689902306928824066708380667143606672126066733060667446906675904066782810668050306683152066873930669113606695270067013230670703806714433067267560673755706749460067679250678385206801383068287140685243506878186066609080666134206661843066626830666350106664517066662250666782906669727066727270667537206678335066827850668702506692475067015330670961506718692067326400674479406758552067802760679942306820570066540120665433406654705066553050665588106656605066578490665902706660413066625660666446106666615066699390667313706677219066839730669012106697190067079710671748306728574067463290676221906780066066474520664760606647779066480360664828206648622066492870664996306650774066520270665311806654348066562250665803606660350066641090666761506671868066786520668487406692354067046490671586906728749066586440665805906657526066568800665642406655990066554420665504506654665066541880665386606653599066532960665297806652484066518070665162406652042066537760665604806659185066648380667038806677196066770440667592706674856066734260667231406671181066696570666848006667270066655880666424906662828066606760665856206655820066516170664884806647061066460980664626506647138066494040665198806655416066925580669112506689727066878170668629706684725066825760668087706679075066764540667428306671926066682950666462506659855066528870664819506644629066416820664047106639877066398750664037806641392066997110669813206696593066944550669272006690896066883660668634406684193066810600667842606675478066707620666607106660180066515830664576606641313066374310663550506634065066327680663213606631808066990760669743506695828066936010669180006689907066872750668516406682910066796130667683106673711066687280666382706657764066490690664325906638809066347860663273306631184066295770662861606627868066926060669097706689367066871450668536006683496066809150667884406676617066733260667054706667475066627230665818406652649066447970663972106635964066324980663067106629259066276660662661906625712066785880667710906675637066735800667191806670189066678300666596806663988066610960665868206656052066520800664838106644001066380640663429906631481066288670662746106626371066250710662413706623253066667140666533506663971066620820666056706658992066568390665513806653335066507260664857106646251066428190663973306636152066312580662814706625836066236570662240206621337066201550661930106618380066524090665113506649875066481520664678406645367066434220664188006640243066378800663595206633924066310360662851606625621066216610661906406617041066151140661402306613095066119340661105906610163066343800663325106632134066305980662937006628091066263290662494406623510066215250661994406618267066158230661371906611385066082320660619806604625066029290660187006600966065996840659871406597838066210850662010106619117066176730661647406615251066136890661251606611264066093640660778706606200066041890660254606600644065980690659634606594913065933730659238706591476065902460658929306588347066027700660188806601017065997770659876306597718065963390659529106594205065926680659143206590160065884430658712406585772065839220658258806581418065801530657930006578433065772710657636506575433065824380658177706581116065801640657938506578587065775530657678006575989065748750657398406573073065718670657099206570154065690040656816506567412065664670656579406565161065642440656352006562830065724880657197606571467065707400657014906569546065687690656818906567593065667490656607906565411065645680656396906563390065626310656207406561540065608320656031306559824065591680655863206558073065658720656551606565166065646670656426206563854065633380656296006562573065620180656157506561140065606110656022806559845065593750655902306558654065582330655792806557585065571540655684906556522065634630656327406563092065628250656259906562364065620560656182706561596065612810656103906560802065605070656028806560074065598500655967906559469065592510655910206558909065586300655842306558226065644520656435806564263065640880656391906563743065635330656339506563264065630850656294306562797065626040656245306562310065621910656209706561955065618290656175006561620065614260656127706561134065683000656824406568194065681260656806906568003065678980656781106567726065676330656757406567519065674410656737906567318065672400656718206567122065670460656698906566931065668520656679306566737065754500657542806575408065753830657536306575337065752870657524306575203065751680657515106575128065750750657504706575044065750010657497306574982065749370657489506574902065748820657482806574776065809910658096906580943065809140658089606580882065808640658084906580831065807990658077506580762065807710658075806580710065806930658071106580714065806750658064406580642065806550658064506580611065871590658713706587120065871190658712906587135065871170658709006587070065870790658709806587099065870370658699906587016065870270658701806587018065870270658704006587048065869920658695106586961065942070659418606594181065942190659426406594294065942700659422306594198065942590659433506594352065941880659411606594225065942680659421406594213065942840659435306594374065942240659413406594199,
    67121370671443506716557067193700672176906724598067292120673351306738667067470890675490606763929067768790678678806797828068196440684034706862862068972850692790706962438070122860705380307099545067073910670934106711150067135590671562206718061067220480672577506730247067375590674434506752181067634600677213806781835068009200681906106838875068692280689622406926687069708800700789507048830067014110670292506704338067062390670787706709824067130220671602506719638067255520673104006737380067465550675368206761687067773310679224206808654068338790685630806881646069187140695005706984935066974730669869806699851067014170670277606704399067070770670960306712651067176440672227506727631067354190674152506748415067617940677457706788747068105950683001506851979068843530691196006942848066932980669421806695095066963050669736906698648067007760670279606705244067092610671298506717297067236160672863806734347067453230675585206767646067859130680214506820530068479300687157606898236066885510668912406689688066904940669122206692110066936120669505706696823066997300670242406705549067101970671398906718354067266000673456506743659067578550677046206784780068065240682566906847520066851840668551106685851066863720668686106687472066885290668956706690849066929690669493106697214067006760670359506707007067133150671946206726639067379480674798206759414067771450679309606811536066822380668216906682158066822380668236906682570066829810668343306684028066850520668601706687166066890150669070506692759066964250670008406704577067118290671830506725772067378660674925806762833066901150668935806688756066881370668773406687356066869160668665406686470066863580668638206686507066868450668724406687824066890740669040506692077066949630669775406701163067069000671262606719883066951730669411506693246066923060669166406691034066902410668969406689205066886470668829206688001066877540668770106687793066881810668866106689314066905880669188706693529066965190669959506703553066954740669422506693196066920730669129406690517066895160668880206688138066873290668676306686243066856780668538406685218066851470668517406685290066857230668624206686937066883600668989306691867066893580668801906686903066856680668480406683938066828160668201106681255066803190667964906679015066782860667786006677544066772100667703006676930066768900667697006677198066777760667845206679358066818440668048106679331066780540667717106676303066751860667437206673592066726130667191006671248066704710666998806669592066691400666889606668743066685220666844106668527066687890666913006669646066688580666753706666444066652380666438906663530066624120666160906660856066599020665918406658472066576290665713906656778066563360665600506655698066553720665521606655137066550900665512606655262066520940665095306649997066489310664818206647430066464430664571606645018066441480664353706642969066422740664178106641343066409440664062606640211066397710663949706639217066389100663861806638247066413340664033706639489066385370663787506637224066363840663577106635180066344280663387706633345066326910663225006631863066314160663108706630740066302580662985306629418066288780662838206627774066296950662884506628112066272810662670706626150066254380662492106624421066237790662330006622823066221850662169106621239066208960662067406620335066197930661938006618936066180820661736906616721066161160661547106614895066142120661372406613244066126230661216806611729066111770661078506610407066098940660946906609061066087780660854706608145066076370660730506606905066059830660518706604478066071880660666606606150066055110660507906604693066042070660381906603406066028870660257006602326066019980660165306601243066008910660067306600374065999400659957506599127065983130659754506596701065971620659674706596397065960010659571906595432065950520659476906594493065941300659385206593571065932110659296106592741065925080659232006592091065917730659145406591020065903450658972506588994065886840658844006588233065879930658781206587620065873700658720006587052065868650658671106586540065863120658615806586025065858440658568006585498065852770658507206584783065842980658384006583304065846370658447206584335065841770658405606583924065837480658362706583519065833840658327606583156065829920658287306582766065826440658253406582396065822290658206406581826065814520658112106580733065815790658147506581388065812880658121706581142065810380658095306580864065807470658066606580592065804950658041506580332065802500658018806580108065799950657987306579704065794650657923506578930065803450658028406580235065801800658013506580083065800070657995006579896065798400657981606579803065797710657970706579620065795600657952506579459065793440657927806579227065790790657892306578755065810880658105906581039065810130658098306580940065808780658083806580810065807850658077306580761065807340658069706580645065805800658056306580562065804710658039506580358065802620658016706580074065842990658429306584277065842500658422806584208065841850658416806584152065841280658410506584080065840540658405206584055065840130658398606583990065839590658391606583878065838280658379706583762065907220659070606590706065907190659072406590717065906990659068506590673065906670659067206590682065906870659067006590641065906350659064506590646065906280659061106590599065905810659054906590507065958560659584406595836065958300659583106595834065958360659583206595821065958030659579406595790065957920659579606595799065957990659579806595798065957960659578006595753065957510659574906595726066018790660187606601865066018470660183606601832066018340660183706601842066018470660184906601851066018500660184906601847066018460660184906601851066018200660180406601814066018170660181706601824066090990660910106609110066091260660913506609139066091380660913406609130066091240660912106609120066091200660912106609123066091250660912206609120066091470660915906609148066091530660914006609123,
    67626300676350106764788067670190676899606771123067741440677690506780422067866530679261506799644068105250681985706830034068454440686100806880617069119400693998906970664070134880705082507093392067507680675154906752694067546640675640806758290067609810676344906766589067721410677744906783703067933890680170306810780068245490683846506855991068839620690900906936463069749640700856407046911067358230673649006737457067390990674054806742123067443980674649606749161067538580675834006763620067717990677883106786524067982230681006306824965068487120686997906893375069264280695532006988351067259790672657206727421067288460673010206731473067334750673532906737682067418150674575406750391067575790676376506770546067808830679135506804529068254940684427006864992068944590692024906949778067155450671605706716782067179780671902906720185067218970672349206725513067290500673241206736369067425050674779506753609067625020677152506782866068008820681701806834907068605700688307306908891067036820670410506704688067056230670644106707352067087340671003506711680067145380671724506720428067253680672964106734356067416070674898106758240067729030678603806800706068220460684081206862410066952660669562506696107066968570669750906698247066993950670048806701866067042420670648406709118067132100671676006720695067267810673298606740767067530510676405706776440067947120681082706829431066834030668367206684013066845020668492206685415066862340668703206688034066897320669131906693180066960770669861006701447067058920671045006716149067250840673309006742254067562050676858406782970066682970666844606668638066689230666917006669461066699390667040406670989066719820667290406673973066756240667709306678792066815330668425806687663066931930669817406703924067129180672098106730535066582790665838606658519066587000665885306659033066593410665965506660064066607810666144806662211066633630666438306665572066675180666946206671887066758320667943006683608066901460669609306703228066476570664771806647793066478980664799106648108066483210664853506648801066492470664966506650161066509540665167306652509066538510665516206656801066595310666205906664987066695270667375106678868066355540663562906635719066358300663590206635961066360270663609806636216066364790663675506637086066375990663805706638590066394450664025406641272066430310664467706646579066495330665229806655664066271320662716206627198066272430662727706627315066273790662744606627536066277020662787606628100066284850662884106629249066298730663044606631156066323950663361806635032066371130663911006641589066154640661550006615526066155200661550706615514066155800661565806615738066158300661590906616020066162440661646606616725066171260661751406617997066187740661944306620210066215030662279606624348066015120660156906601624066016610660166606601660066016480660165006601673066017480660182506601904066020010660207806602172066023400660250406602707066030830660352506603993066044740660511206605979065933450659333306593329065933470659337106593391065934040659341006593422065934580659349706593540065936000659365206593716065938230659390206593995065942130659451306594826065950790659544306595974065877470658774806587751065877600658776606587769065877630658775906587764065877890658781506587840065878630658788106587910065879720658802106588082065882020658829006588398065886400658882906589025065964910659649006596490065964880659648606596485065964850659648606596487065964910659649406596496065964970659649706596500065965080659651106596512065965230659656006596588065965870659677506597028066123960661239606612397066123980661240006612400066123990661239706612393066123880661238606612387066123960661240406612408066124040661240106612401066123930661235106612284066122360661233206612469066350790663507906635079066350780663507806635078066350810663508406635088066350940663509506635090066350700663505306635044066350450663503906635043066350710663497006634841066348560663476606634613066472470664724606647249066472590664726206647251066472050664716206647129066471180664712406647127066471130664709406647078066470740664708806647080066469870664694706646933066468550664677406646693066467360664673506646736066467420664674406646737066467120664668806646667066466560664665806646666066466790664668706646687066466830664670306646692066465520664653106646546066463900664627606646204066414100664141006641410066414090664140906641409066414130664141606641418066414190664141806641418066414200664142006641416066414110664143206641420066412690664121406641233066412220664114406641025066323840663238406632384066323840663238406632384066323830663238206632381066323810663238106632381066323830663238306632382066323810663238706632384066323440663235306632346066321970663216206632161066257580662575806625758066257580662575806625758066257590662576006625760066257610662576006625760066257600662575906625759066257600662575806625759066257790662580606625792066256430662555006625499066182900661829006618290066182900661829006618290066182890661828906618289066182890661828906618289066182890661828906618289066182890661828906618289066182880661827906618284066183160661822806618080066143330661433306614333066143330661433306614333066143330661433306614333066143330661433306614333066143330661433306614333066143330661433306614333066143330661433706614335066143210661437206614361066150150661501506615015066150150661501506615015066150150661501506615015066150150661501506615015066150150661501506615015066150150661501506615015066150150661501506615015066150160661501806615009066179200661792006617920066179200661792006617920066179200661792006617920066179200661792006617920066179200661792006617920066179200661792006617920066179200661792006617920066179210661791606617920066231460662314606623146066231460662314606623146066231460662314606623146066231460662314606623146066231460662314606623146066231460662314606623146066231460662314606623146066231460662314706623146,
    68153000681560806816417068181550681989106821905068248570682730406830291068357780684148506848359068587310686726206876480068900240690199306917650069451790697030306999054070412560707518407113094068034880680377306804515068060870680763906809432068120660681426306816948068218740682698706833144068424480685011906858422068706420688144606895555069203320694295306968854070069410703765507072008067886060678886206789519067908840679220306793718067959520679783206800138068043560680872106813975068219330682852006835672068462230685556006867718068890280690849506930806069637090699037207020244067788040677904006779642067808690678203606783368067853370678700906789065067928180679668906801349068084210681429306820686068301390683850906849382068684080688579806905744069352330695922806986149067684130676862906769172067702540677125806772396067740860677553706777328067805870678393506787965067940970679921306804801068130900682043506829946068465510686173906879178069050480692621406950007067566010675679406757270067581860675900706759923067612950676249506763985067666830676943706772750067778140678206906786743067937080679988806807850068217040683438806848978068707330688868406908920067482200674839706748824067496240675031406751074067522200675324206754518067568180675915006761954067662610676990606773931067799560678531006792173068040740681498306827551068463860686205606879769067364070673656106736922067375570673806206738601067394300674020006741175067429140674465206746739067499780675276206755873067605740676476306770078067792270678763206797351068120720682452606838682067215980672171206721965067223640672262906722895067233420672381806724441067255200672655106727784067297460673150106733509067365920673933706742741067485470675397006760282067699980677847006788243067119580671200306712107067122910671244006712619067129500671330606713765067145460671528106716157067175660671884106720300067225090672444506726841067310330673508806739811067469940675325306760621067012750670126006701258067013690670158806701876067022570670248906702725067031680670367706704323067053340670618906707140067085930670992706711711067148120671756506720818067260000673058506736001066892350668927006689346066894640668954006689615066897430668988406690069066903900669069806691074066916990669228006692947066939430669482006696008066980960669994806702206067057700670874406712374066806640668068806680741066808240668088006680936066810290668112706681256066814790668169506681965066824220668285606683357066841010668474106685570066870650668849406690185066928210669515006697926066685980666859706668602066686340666868606668755066688490666891306668980066691000666923006669398066696800666994206670252066707490667120006671733066726400667355006674618066763340667796306679822066535900665358806653587066536010665363106653670066537180665374406653773066538460665394006654054066542040665430406654424066546820665497606655277066557470665629906656952066579000665873306659795066438380664386806643929066439970664400806643998066439950664402706644078066441540664420306644247066443100664437006644455066446270664481306645033066454040664578006646171066467610664738106648091066346290663463206634637066346450663464806634648066346420663463406634633066346580663470406634765066348460663489806634957066350730663520006635317066355110663577206636026066363470663670506637185066300630663006406630065066300690663007306630074066300670663005306630046066300770663014406630217066302640663023506630199066302500663038906630445066304240663053306630632066307530663098606631204066353650663536606635367066353670663536806635368066353670663536706635368066353740663538206635390066353940663538806635383066353920663541206635415066354170663544806635404066352860663531106635357066497770664977406649771066497700664977506649779066497700664974606649715066496780664966206649657066496570664965606649642066495810664950306649452066493940664927106649125066489260664873806648528066616190666161706661613066616140666162006661625066616130666158306661546066615140666151606661524066615080666145706661384066612900666123006661137066609640666083506660683066604130666015206659821066620970666207806662039066619910666197806661980066619930666200006662002066619920666197406661944066618840666182406661758066616760666161706661523066613560666123506661050066607070666044506660136066576440665764706657648066576320665760006657562066575280665752606657534066575300665750006657455066573960665736306657335066572860665722406657116066569200665677006656589066563060665608906655812066491080664911206649116066491040664907206649032066489860664897106648972066489890664900706649014066489820664891206648819066486950664861806648543066484500664838506648231066478890664762306647359066423520664235206642353066423500664234606642340066423380664234306642346066423370664231206642271066421910664211806642050066420040664200406641959066418240664172606641581066412920664105406640867066342900663429006634291066342910663429006634291066343030663432106634330066343020663423606634149066340460663400406633995066340250663405306633985066338250663380306633726066334960663335006633183066286660662866606628666066286660662866606628666066286660662866606628666066286700662867506628679066286770662866706628661066286780662869906628623066284440662842806628469066284500662831106628159066285670662856706628567066285670662856706628567066285670662856606628565066285660662856806628569066285650662855506628549066285670662858706628512066283360662832006628363066283330662817706628102066307740663077206630769066307750663078906630797066307710663071206630636066305570663053606630541066305580663056306630561066305580663055906630554066305400663054106630539066305400663054706630472066351700663517006635171066351700663516806635166066351710663518006635193066352060663520906635208066352050663520406635204066352050663520506635203066351990663520006635197066352000663521106635154,
    68702220687022206870622068721190687370606875481068780520688015906882449068861790688991006894727069030760691110206920685069351590694691806959200069783080699845807026281070691710710289407137712068588760685887606859235068605800686200606863599068659110686781206869885068732660687664506881000068885360689577006904400069174420692805806939179069565550697483106999932070386620706924407100926068445800684458006844888068460420684726406848630068506150685225606854056068569980685993206863707068702190687645506883884068951210690429706913955069291510694506406966736070002250702684807054581068351640683516406835439068364660683755406838769068405400684201006843630068462820684892406852316068581530686373206870370068804190688864606897340069110990692545706944870069749070699892307024054068251830682518306825422068263160682726106828317068298600683114906832578068349230683725506840241068453630685024606856046068648340687205506879728068919650690467306921692069480690696932206991694068138360681383606814035068147770681556006816435068177200681880206820014068220100682399006826514068308240683491406839761068471180685319506859707068702120688104606895343069175600693567106954908068057860680578606805955068065890680725806808005068091050681004206811100068128480681457806816775068205080682403606828207068345470683981406845501068547790686428206876647068959130691179506928808067944390679443906794568067950500679555806796123067969650679769506798536067999350680131306803048068059690680870506811923068168310682095406825480068330260684065406850298068654040687814506892022067801430678014306780222067805130678081806781156067816730678214406782712067836710678460606785761067876610678940406791427067945380679722606800293068056570681092706817158068270460683583706845765067706950677069506770750067709520677115806771382067717220677203706772424067730920677375006774568067759130677714006778557067807420678264706784847067887510679258406797078068042460681070006818083067605930676059306760635067607860676093206761078067612860676147406761707067621280676256806763138067640940676496806765972067675130676885506770395067730450677569506778965067841860678878306794007067489910674899106749019067491120674919606749275067493950674952506749710067500360675034106750696067512670675180206752443067534650675437306755418067571470675885706761015067644980676760706771203067407560674075606740764067408010674084606740903067410130674113306741292067415470674176006741987067423570674273606743228067440260674470906745458067467160674799606749626067522580675457606757217067291730672917306729169067291590672915606729162067291950672924506729321067294630672959906729761067300390673031606730662067311980673163606732104067329280673378606734851067365380673802806739752067144060671440606714400067143940671440906714453067145330671458506714618067146620671472706714840067150380671519506715344067155590671576906716038067164470671692106717662067185780671931706720458067047380670473806704727067047130670473706704810067049370670500906705031067050230670503406705087067052020670529706705383067055000670561406705775067061520670656606707036067076660670822406708972066947060669470606694707066947090669470606694697066946900669470006694732066947940669484106694880066949330669498706695063066951880669529306695416066957040669596406696164066965810669702206697441066834640668346406683461066834570668346406683484066835200668354106683550066835520668356006683580066836180668364806683674066837240668379306683893066840090668410706684274066845380668476406685046066757700667577006675768066757660667577006675783066758040667581506675815066758080667580906675821066758510667588106675912066759580667599806676048066761510667624006676318066764840667666906676877066655040666550406665504066655040666550406665502066654980666549406665491066654910666549606665508066655370666557206665617066656660666567206665650066656990666579106665863066659180666598006666108066540450665404506654045066540450665404506654045066540450665404606654049066540500665404606654035066540220665402306654038066540700665408906654096066540820665408106654118066541820665421406654237066476420664764206647642066476410664764206647643066476440664764106647636066476330664764106647663066476980664771706647722066477120664770406647701066477080664770606647687066477330664779106647789066421850664218506642184066421840664218506642187066421880664218506642177066421720664218506642217066422730664230606642318066423150664231006642310066423090664230906642314066423040664229206642297066378430663784306637843066378430663784306637843066378430663784306637844066378450663784306637840066378340663783106637829066378290663783006637830066378300663783006637830066378300663782906637829066358290663582906635829066358290663582906635829066358290663582906635828066358280663582906635830066358330663583506635835066358350663583506635835066358350663583506635834066358410663584906635850066350020663500206635002066350020663500206635002066350020663500206635002066350020663500206635001066350000663500006634999066349990663499906635000066349980663499906635006066349710663493006634925066366860663668606636686066366860663668606636686066366860663668606636686066366860663668606636686066366860663668606636686066366850663668606636687066366830663668606636697066366390663657106636563066390290663902906639029066390290663902906639029066390290663902906639029066390290663902906639029066390290663902906639029066390290663902906639028066390290663902906639026066390390663905306639055066425600664256006642560066425600664256006642560066425600664256006642560066425600664256006642560066425600664256006642560066425600664256006642560066425600664256006642561066425570664255206642552066473220664732206647322066473220664732206647322066473220664732206647322066473220664732206647322066473220664732206647322066473220664732206647322066473230664732206647322066473230664732406647324]

/-- `json_database/ccd89_ne.json`. -/
def ccd89_ne : PackedFile where
  temperature := [10000000, 10010000, 10020000, 10030000, 10040000, 10050000, 10060000, 10070000, 10080000, 10090000, 10100000, 10110000, 10120000, 10130000, 10140000, 10150000, 10160000, 10170000, 10180000, 10190000, 10200000, 10210000, 10220000, 10230000, 10240000, 10250000, 10260000, 10270000, 10280000, 10290000, 10300000, 10310000, 10320000, 10330000, 10340000, 10350000, 10360000, 10370000, 10380000, 10390000, 10400000, 10410000, 10420000, 10430000, 10440000, 10450000, 10460000, 10470000]
  density := [11600000, 11620000, 11640000, 11660000, 11680000, 11700000, 11720000, 11740000, 11760000, 11780000, 11800000, 11820000, 11840000, 11860000, 11880000, 11900000, 11920000, 11940000, 11960000, 11980000, 12000000, 12020000, 12040000, 12060000, 12080000, 12100000]
  levels := [
    84768890847688908476889084768890847688908476889084768890847688908476889084768890847688908476889084768890847688908476889084768890847688908476889084768890847688908476889084768890847688908476889084768890847688908481889084818890848188908481889084818890848188908481889084818890848188908481889084818890848188908481889084818890848188908481889084818890848188908481889084818890848188908481889084818890848188908481889084818890848688908486889084868890848688908486889084868890848688908486889084868890848688908486889084868890848688908486889084868890848688908486889084868890848688908486889084868890848688908486889084868890848688908486889084918890849188908491889084918890849188908491889084918890849188908491889084918890849188908491889084918890849188908491889084918890849188908491889084918890849188908491889084918890849188908491889084918890849188908496889084968890849688908496889084968890849688908496889084968890849688908496889084968890849688908496889084968890849688908496889084968890849688908496889084968890849688908496889084968890849688908496889084968890850188908501889085018890850188908501889085018890850188908501889085018890850188908501889085018890850188908501889085018890850188908501889085018890850188908501889085018890850188908501889085018890850188908501889085068890850688908506889085068890850688908506889085068890850688908506889085068890850688908506889085068890850688908506889085068890850688908506889085068890850688908506889085068890850688908506889085068890850688908511889085118890851188908511889085118890851188908511889085118890851188908511889085118890851188908511889085118890851188908511889085118890851188908511889085118890851188908511889085118890851188908511889085118890851688908516889085168890851688908516889085168890851688908516889085168890851688908516889085168890851688908516889085168890851688908516889085168890851688908516889085168890851688908516889085168890851688908516889085218890852188908521889085218890852188908521889085218890852188908521889085218890852188908521889085218890852188908521889085218890852188908521889085218890852188908521889085218890852188908521889085218890852188908526889085268890852688908526889085268890852688908526889085268890852688908526889085268890852688908526889085268890852688908526889085268890852688908526889085268890852688908526889085268890852688908526889085268890853188908531889085318890853188908531889085318890853188908531889085318890853188908531889085318890853188908531889085318890853188908531889085318890853188908531889085318890853188908531889085318890853188908531889085368890853688908536889085368890853688908536889085368890853688908536889085368890853688908536889085368890853688908536889085368890853688908536889085368890853688908536889085368890853688908536889085368890853688908541889085418890854188908541889085418890854188908541889085418890854188908541889085418890854188908541889085418890854188908541889085418890854188908541889085418890854188908541889085418890854188908541889085418890854688908546889085468890854688908546889085468890854688908546889085468890854688908546889085468890854688908546889085468890854688908546889085468890854688908546889085468890854688908546889085468890854688908546889085518890855188908551889085518890855188908551889085518890855188908551889085518890855188908551889085518890855188908551889085518890855188908551889085518890855188908551889085518890855188908551889085518890855188908556889085568890855688908556889085568890855688908556889085568890855688908556889085568890855688908556889085568890855688908556889085568890855688908556889085568890855688908556889085568890855688908556889085568890856188908561889085618890856188908561889085618890856188908561889085618890856188908561889085618890856188908561889085618890856188908561889085618890856188908561889085618890856188908561889085618890856188908561889085668890856688908566889085668890856688908566889085668890856688908566889085668890856688908566889085668890856688908566889085668890856688908566889085668890856688908566889085668890856688908566889085668890856688908571889085718890857188908571889085718890857188908571889085718890857188908571889085718890857188908571889085718890857188908571889085718890857188908571889085718890857188908571889085718890857188908571889085718890857688908576889085768890857688908576889085768890857688908576889085768890857688908576889085768890857688908576889085768890857688908576889085768890857688908576889085768890857688908576889085768890857688908576889085818890858188908581889085818890858188908581889085818890858188908581889085818890858188908581889085818890858188908581889085818890858188908581889085818890858188908581889085818890858188908581889085818890858188908586889085868890858688908586889085868890858688908586889085868890858688908586889085868890858688908586889085868890858688908586889085868890858688908586889085868890858688908586889085868890858688908586889085868890859188908591889085918890859188908591889085918890859188908591889085918890859188908591889085918890859188908591889085918890859188908591889085918890859188908591889085918890859188908591889085918890859188908591889085968890859688908596889085968890859688908596889085968890859688908596889085968890859688908596889085968890859688908596889085968890859688908596889085968890859688908596889085968890859688908596889085968890859688908601889086018890860188908601889086018890860188908601889086018890860188908601889086018890860188908601889086018890860188908601889086018890860188908601889086018890860188908601889086018890860188908601889086018890860688908606889086068890860688908606889086068890860688908606889086068890860688908606889086068890860688908606889086068890860688908606889086068890860688908606889086068890860688908606889086068890860688908606889086118890861188908611889086118890861188908611889086118890861188908611889086118890861188908611889086118890861188908611889086118890861188908611889086118890861188908611889086118890861188908611889086118890861188908616889086168890861688908616889086168890861688908616889086168890861688908616889086168890861688908616889086168890861688908616889086168890861688908616889086168890861688908616889086168890861688908616889086168890862188908621889086218890862188908621889086218890862188908621889086218890862188908621889086218890862188908621889086218890862188908621889086218890862188908621889086218890862188908621889086218890862188908621889086268890862688908626889086268890862688908626889086268890862688908626889086268890862688908626889086268890862688908626889086268890862688908626889086268890862688908626889086268890862688908626889086268890862688908631889086318890863188908631889086318890863188908631889086318890863188908631889086318890863188908631889086318890863188908631889086318890863188908631889086318890863188908631889086318890863188908631889086318890863688908636889086368890863688908636889086368890863688908636889086368890863688908636889086368890863688908636889086368890863688908636889086368890863688908636889086368890863688908636889086368890863688908636889086418890864188908641889086418890864188908641889086418890864188908641889086418890864188908641889086418890864188908641889086418890864188908641889086418890864188908641889086418890864188908641889086418890864188908646889086468890864688908646889086468890864688908646889086468890864688908646889086468890864688908646889086468890864688908646889086468890864688908646889086468890864688908646889086468890864688908646889086468890865188908651889086518890865188908651889086518890865188908651889086518890865188908651889086518890865188908651889086518890865188908651889086518890865188908651889086518890865188908651889086518890865188908651889086568890865688908656889086568890865688908656889086568890865688908656889086568890865688908656889086568890865688908656889086568890865688908656889086568890865688908656889086568890865688908656889086568890865688908661889086618890866188908661889086618890866188908661889086618890866188908661889086618890866188908661889086618890866188908661889086618890866188908661889086618890866188908661889086618890866188908661889086618890866688908666889086668890866688908666889086668890866688908666889086668890866688908666889086668890866688908666889086668890866688908666889086668890866688908666889086668890866688908666889086668890866688908666889086718890867188908671889086718890867188908671889086718890867188908671889086718890867188908671889086718890867188908671889086718890867188908671889086718890867188908671889086718890867188908671889086718890867188908676889086768890867688908676889086768890867688908676889086768890867688908676889086768890867688908676889086768890867688908676889086768890867688908676889086768890867688908676889086768890867688908676889086768890868188908681889086818890868188908681889086818890868188908681889086818890868188908681889086818890868188908681889086818890868188908681889086818890868188908681889086818890868188908681889086818890868188908681889086868890868688908686889086868890868688908686889086868890868688908686889086868890868688908686889086868890868688908686889086868890868688908686889086868890868688908686889086868890868688908686889086868890868688908691889086918890869188908691889086918890869188908691889086918890869188908691889086918890869188908691889086918890869188908691889086918890869188908691889086918890869188908691889086918890869188908691889086918890869688908696889086968890869688908696889086968890869688908696889086968890869688908696889086968890869688908696889086968890869688908696889086968890869688908696889086968890869688908696889086968890869688908696889087018890870188908701889087018890870188908701889087018890870188908701889087018890870188908701889087018890870188908701889087018890870188908701889087018890870188908701889087018890870188908701889087018890870188908706889087068890870688908706889087068890870688908706889087068890870688908706889087068890870688908706889087068890870688908706889087068890870688908706889087068890870688908706889087068890870688908706889087068890871188908711889087118890871188908711889087118890871188908711889087118890871188908711889087118890871188908711889087118890871188908711889087118890871188908711889087118890871188908711889087118890871188908711889,
    85090990850909908509099085090990850909908509099085090990850909908509099085090990850909908509099085090990850909908509099085090990850909908509099085090990850909908509099085090990850909908509099085090990850909908514099085140990851409908514099085140990851409908514099085140990851409908514099085140990851409908514099085140990851409908514099085140990851409908514099085140990851409908514099085140990851409908514099085140990851909908519099085190990851909908519099085190990851909908519099085190990851909908519099085190990851909908519099085190990851909908519099085190990851909908519099085190990851909908519099085190990851909908519099085240990852409908524099085240990852409908524099085240990852409908524099085240990852409908524099085240990852409908524099085240990852409908524099085240990852409908524099085240990852409908524099085240990852409908529099085290990852909908529099085290990852909908529099085290990852909908529099085290990852909908529099085290990852909908529099085290990852909908529099085290990852909908529099085290990852909908529099085290990853409908534099085340990853409908534099085340990853409908534099085340990853409908534099085340990853409908534099085340990853409908534099085340990853409908534099085340990853409908534099085340990853409908534099085390990853909908539099085390990853909908539099085390990853909908539099085390990853909908539099085390990853909908539099085390990853909908539099085390990853909908539099085390990853909908539099085390990853909908544099085440990854409908544099085440990854409908544099085440990854409908544099085440990854409908544099085440990854409908544099085440990854409908544099085440990854409908544099085440990854409908544099085440990854909908549099085490990854909908549099085490990854909908549099085490990854909908549099085490990854909908549099085490990854909908549099085490990854909908549099085490990854909908549099085490990854909908549099085540990855409908554099085540990855409908554099085540990855409908554099085540990855409908554099085540990855409908554099085540990855409908554099085540990855409908554099085540990855409908554099085540990855409908559099085590990855909908559099085590990855909908559099085590990855909908559099085590990855909908559099085590990855909908559099085590990855909908559099085590990855909908559099085590990855909908559099085590990856409908564099085640990856409908564099085640990856409908564099085640990856409908564099085640990856409908564099085640990856409908564099085640990856409908564099085640990856409908564099085640990856409908564099085690990856909908569099085690990856909908569099085690990856909908569099085690990856909908569099085690990856909908569099085690990856909908569099085690990856909908569099085690990856909908569099085690990856909908574099085740990857409908574099085740990857409908574099085740990857409908574099085740990857409908574099085740990857409908574099085740990857409908574099085740990857409908574099085740990857409908574099085740990857909908579099085790990857909908579099085790990857909908579099085790990857909908579099085790990857909908579099085790990857909908579099085790990857909908579099085790990857909908579099085790990857909908579099085840990858409908584099085840990858409908584099085840990858409908584099085840990858409908584099085840990858409908584099085840990858409908584099085840990858409908584099085840990858409908584099085840990858409908589099085890990858909908589099085890990858909908589099085890990858909908589099085890990858909908589099085890990858909908589099085890990858909908589099085890990858909908589099085890990858909908589099085890990859409908594099085940990859409908594099085940990859409908594099085940990859409908594099085940990859409908594099085940990859409908594099085940990859409908594099085940990859409908594099085940990859409908594099085990990859909908599099085990990859909908599099085990990859909908599099085990990859909908599099085990990859909908599099085990990859909908599099085990990859909908599099085990990859909908599099085990990859909908604099086040990860409908604099086040990860409908604099086040990860409908604099086040990860409908604099086040990860409908604099086040990860409908604099086040990860409908604099086040990860409908604099086040990860909908609099086090990860909908609099086090990860909908609099086090990860909908609099086090990860909908609099086090990860909908609099086090990860909908609099086090990860909908609099086090990860909908609099086140990861409908614099086140990861409908614099086140990861409908614099086140990861409908614099086140990861409908614099086140990861409908614099086140990861409908614099086140990861409908614099086140990861409908619099086190990861909908619099086190990861909908619099086190990861909908619099086190990861909908619099086190990861909908619099086190990861909908619099086190990861909908619099086190990861909908619099086190990862409908624099086240990862409908624099086240990862409908624099086240990862409908624099086240990862409908624099086240990862409908624099086240990862409908624099086240990862409908624099086240990862409908624099086290990862909908629099086290990862909908629099086290990862909908629099086290990862909908629099086290990862909908629099086290990862909908629099086290990862909908629099086290990862909908629099086290990862909908634099086340990863409908634099086340990863409908634099086340990863409908634099086340990863409908634099086340990863409908634099086340990863409908634099086340990863409908634099086340990863409908634099086340990863909908639099086390990863909908639099086390990863909908639099086390990863909908639099086390990863909908639099086390990863909908639099086390990863909908639099086390990863909908639099086390990863909908639099086440990864409908644099086440990864409908644099086440990864409908644099086440990864409908644099086440990864409908644099086440990864409908644099086440990864409908644099086440990864409908644099086440990864409908649099086490990864909908649099086490990864909908649099086490990864909908649099086490990864909908649099086490990864909908649099086490990864909908649099086490990864909908649099086490990864909908649099086490990865409908654099086540990865409908654099086540990865409908654099086540990865409908654099086540990865409908654099086540990865409908654099086540990865409908654099086540990865409908654099086540990865409908654099086590990865909908659099086590990865909908659099086590990865909908659099086590990865909908659099086590990865909908659099086590990865909908659099086590990865909908659099086590990865909908659099086590990865909908664099086640990866409908664099086640990866409908664099086640990866409908664099086640990866409908664099086640990866409908664099086640990866409908664099086640990866409908664099086640990866409908664099086640990866909908669099086690990866909908669099086690990866909908669099086690990866909908669099086690990866909908669099086690990866909908669099086690990866909908669099086690990866909908669099086690990866909908669099086740990867409908674099086740990867409908674099086740990867409908674099086740990867409908674099086740990867409908674099086740990867409908674099086740990867409908674099086740990867409908674099086740990867409908679099086790990867909908679099086790990867909908679099086790990867909908679099086790990867909908679099086790990867909908679099086790990867909908679099086790990867909908679099086790990867909908679099086790990868409908684099086840990868409908684099086840990868409908684099086840990868409908684099086840990868409908684099086840990868409908684099086840990868409908684099086840990868409908684099086840990868409908684099086890990868909908689099086890990868909908689099086890990868909908689099086890990868909908689099086890990868909908689099086890990868909908689099086890990868909908689099086890990868909908689099086890990868909908694099086940990869409908694099086940990869409908694099086940990869409908694099086940990869409908694099086940990869409908694099086940990869409908694099086940990869409908694099086940990869409908694099086940990869909908699099086990990869909908699099086990990869909908699099086990990869909908699099086990990869909908699099086990990869909908699099086990990869909908699099086990990869909908699099086990990869909908699099087040990870409908704099087040990870409908704099087040990870409908704099087040990870409908704099087040990870409908704099087040990870409908704099087040990870409908704099087040990870409908704099087040990870409908709099087090990870909908709099087090990870909908709099087090990870909908709099087090990870909908709099087090990870909908709099087090990870909908709099087090990870909908709099087090990870909908709099087090990871409908714099087140990871409908714099087140990871409908714099087140990871409908714099087140990871409908714099087140990871409908714099087140990871409908714099087140990871409908714099087140990871409908714099087190990871909908719099087190990871909908719099087190990871909908719099087190990871909908719099087190990871909908719099087190990871909908719099087190990871909908719099087190990871909908719099087190990871909908724099087240990872409908724099087240990872409908724099087240990872409908724099087240990872409908724099087240990872409908724099087240990872409908724099087240990872409908724099087240990872409908724099087240990872909908729099087290990872909908729099087290990872909908729099087290990872909908729099087290990872909908729099087290990872909908729099087290990872909908729099087290990872909908729099087290990872909908729099087340990873409908734099087340990873409908734099087340990873409908734099087340990873409908734099087340990873409908734099087340990873409908734099087340990873409908734099087340990873409908734099087340990873409908739099087390990873909908739099087390990873909908739099087390990873909908739099087390990873909908739099087390990873909908739099087390990873909908739099087390990873909908739099087390990873909908739099087390990874409908744099087440990874409908744099087440990874409908744099087440990874409908744099087440990874409908744099087440990874409908744099087440990874409908744099087440990874409908744099087440990874409908744099,
    85279410852794108527941085279410852794108527941085279410852794108527941085279410852794108527941085279410852794108527941085279410852794108527941085279410852794108527941085279410852794108527941085279410852794108532941085329410853294108532941085329410853294108532941085329410853294108532941085329410853294108532941085329410853294108532941085329410853294108532941085329410853294108532941085329410853294108532941085329410853794108537941085379410853794108537941085379410853794108537941085379410853794108537941085379410853794108537941085379410853794108537941085379410853794108537941085379410853794108537941085379410853794108537941085429410854294108542941085429410854294108542941085429410854294108542941085429410854294108542941085429410854294108542941085429410854294108542941085429410854294108542941085429410854294108542941085429410854294108547941085479410854794108547941085479410854794108547941085479410854794108547941085479410854794108547941085479410854794108547941085479410854794108547941085479410854794108547941085479410854794108547941085479410855294108552941085529410855294108552941085529410855294108552941085529410855294108552941085529410855294108552941085529410855294108552941085529410855294108552941085529410855294108552941085529410855294108552941085579410855794108557941085579410855794108557941085579410855794108557941085579410855794108557941085579410855794108557941085579410855794108557941085579410855794108557941085579410855794108557941085579410855794108562941085629410856294108562941085629410856294108562941085629410856294108562941085629410856294108562941085629410856294108562941085629410856294108562941085629410856294108562941085629410856294108562941085629410856794108567941085679410856794108567941085679410856794108567941085679410856794108567941085679410856794108567941085679410856794108567941085679410856794108567941085679410856794108567941085679410856794108567941085729410857294108572941085729410857294108572941085729410857294108572941085729410857294108572941085729410857294108572941085729410857294108572941085729410857294108572941085729410857294108572941085729410857294108577941085779410857794108577941085779410857794108577941085779410857794108577941085779410857794108577941085779410857794108577941085779410857794108577941085779410857794108577941085779410857794108577941085779410858294008582940085829400858294008582940085829400858294008582940085829400858294008582940085829400858294008582940085829400858294008582940085829400858294008582940085829400858294008582940085829400858294008582940085879410858794108587941085879410858794108587941085879410858794108587941085879410858794108587941085879410858794108587941085879410858794108587941085879410858794108587941085879410858794108587941085879410858794108592941085929410859294108592941085929410859294108592941085929410859294108592941085929410859294108592941085929410859294108592941085929410859294108592941085929410859294108592941085929410859294108592941085929410859794108597941085979410859794108597941085979410859794108597941085979410859794108597941085979410859794108597941085979410859794108597941085979410859794108597941085979410859794108597941085979410859794108597941086029410860294108602941086029410860294108602941086029410860294108602941086029410860294108602941086029410860294108602941086029410860294108602941086029410860294108602941086029410860294108602941086029410860294108607941086079410860794108607941086079410860794108607941086079410860794108607941086079410860794108607941086079410860794108607941086079410860794108607941086079410860794108607941086079410860794108607941086079410861294108612941086129410861294108612941086129410861294108612941086129410861294108612941086129410861294108612941086129410861294108612941086129410861294108612941086129410861294108612941086129410861294108612941086179410861794108617941086179410861794108617941086179410861794108617941086179410861794108617941086179410861794108617941086179410861794108617941086179410861794108617941086179410861794108617941086179410861794108622941086229410862294108622941086229410862294108622941086229410862294108622941086229410862294108622941086229410862294108622941086229410862294108622941086229410862294108622941086229410862294108622941086229410862794108627941086279410862794108627941086279410862794108627941086279410862794108627941086279410862794108627941086279410862794108627941086279410862794108627941086279410862794108627941086279410862794108627941086329410863294108632941086329410863294108632941086329410863294108632941086329410863294108632941086329410863294108632941086329410863294108632941086329410863294108632941086329410863294108632941086329410863294108637941086379410863794108637941086379410863794108637941086379410863794108637941086379410863794108637941086379410863794108637941086379410863794108637941086379410863794108637941086379410863794108637941086379410864294108642941086429410864294108642941086429410864294108642941086429410864294108642941086429410864294108642941086429410864294108642941086429410864294108642941086429410864294108642941086429410864294108642941086479410864794108647941086479410864794108647941086479410864794108647941086479410864794108647941086479410864794108647941086479410864794108647941086479410864794108647941086479410864794108647941086479410864794108652941086529410865294108652941086529410865294108652941086529410865294108652941086529410865294108652941086529410865294108652941086529410865294108652941086529410865294108652941086529410865294108652941086529410865794108657941086579410865794108657941086579410865794108657941086579410865794108657941086579410865794108657941086579410865794108657941086579410865794108657941086579410865794108657941086579410865794108657941086629410866294108662941086629410866294108662941086629410866294108662941086629410866294108662941086629410866294108662941086629410866294108662941086629410866294108662941086629410866294108662941086629410866294108667941086679410866794108667941086679410866794108667941086679410866794108667941086679410866794108667941086679410866794108667941086679410866794108667941086679410866794108667941086679410866794108667941086679410867294108672941086729410867294108672941086729410867294108672941086729410867294108672941086729410867294108672941086729410867294108672941086729410867294108672941086729410867294108672941086729410867294108672941086779410867794108677941086779410867794108677941086779410867794108677941086779410867794108677941086779410867794108677941086779410867794108677941086779410867794108677941086779410867794108677941086779410867794108682941086829410868294108682941086829410868294108682941086829410868294108682941086829410868294108682941086829410868294108682941086829410868294108682941086829410868294108682941086829410868294108682941086829410868794108687941086879410868794108687941086879410868794108687941086879410868794108687941086879410868794108687941086879410868794108687941086879410868794108687941086879410868794108687941086879410868794108687941086929410869294108692941086929410869294108692941086929410869294108692941086929410869294108692941086929410869294108692941086929410869294108692941086929410869294108692941086929410869294108692941086929410869294108697941086979410869794108697941086979410869794108697941086979410869794108697941086979410869794108697941086979410869794108697941086979410869794108697941086979410869794108697941086979410869794108697941086979410870294108702941087029410870294108702941087029410870294108702941087029410870294108702941087029410870294108702941087029410870294108702941087029410870294108702941087029410870294108702941087029410870294108702941087079410870794108707941087079410870794108707941087079410870794108707941087079410870794108707941087079410870794108707941087079410870794108707941087079410870794108707941087079410870794108707941087079410870794108712941087129410871294108712941087129410871294108712941087129410871294108712941087129410871294108712941087129410871294108712941087129410871294108712941087129410871294108712941087129410871294108712941087129410871794108717941087179410871794108717941087179410871794108717941087179410871794108717941087179410871794108717941087179410871794108717941087179410871794108717941087179410871794108717941087179410871794108717941087229410872294108722941087229410872294108722941087229410872294108722941087229410872294108722941087229410872294108722941087229410872294108722941087229410872294108722941087229410872294108722941087229410872294108727941087279410872794108727941087279410872794108727941087279410872794108727941087279410872794108727941087279410872794108727941087279410872794108727941087279410872794108727941087279410872794108727941087279410873294108732941087329410873294108732941087329410873294108732941087329410873294108732941087329410873294108732941087329410873294108732941087329410873294108732941087329410873294108732941087329410873294108732941087379410873794108737941087379410873794108737941087379410873794108737941087379410873794108737941087379410873794108737941087379410873794108737941087379410873794108737941087379410873794108737941087379410873794108742941087429410874294108742941087429410874294108742941087429410874294108742941087429410874294108742941087429410874294108742941087429410874294108742941087429410874294108742941087429410874294108742941087429410874794108747941087479410874794108747941087479410874794108747941087479410874794108747941087479410874794108747941087479410874794108747941087479410874794108747941087479410874794108747941087479410874794108747941087529410875294108752941087529410875294108752941087529410875294108752941087529410875294108752941087529410875294108752941087529410875294108752941087529410875294108752941087529410875294108752941087529410875294108757941087579410875794108757941087579410875794108757941087579410875794108757941087579410875794108757941087579410875794108757941087579410875794108757941087579410875794108757941087579410875794108757941087579410876294108762941087629410876294108762941087629410876294108762941087629410876294108762941087629410876294108762941087629410876294108762941087629410876294108762941087629410876294108762941087629410876294108762941,
    85413090854130908541309085413090854130908541309085413090854130908541309085413090854130908541309085413090854130908541309085413090854130908541309085413090854130908541309085413090854130908541309085413090854130908546309085463090854630908546309085463090854630908546309085463090854630908546309085463090854630908546309085463090854630908546309085463090854630908546309085463090854630908546309085463090854630908546309085463090855130908551309085513090855130908551309085513090855130908551309085513090855130908551309085513090855130908551309085513090855130908551309085513090855130908551309085513090855130908551309085513090855130908551309085563090855630908556309085563090855630908556309085563090855630908556309085563090855630908556309085563090855630908556309085563090855630908556309085563090855630908556309085563090855630908556309085563090855630908561309085613090856130908561309085613090856130908561309085613090856130908561309085613090856130908561309085613090856130908561309085613090856130908561309085613090856130908561309085613090856130908561309085613090856630908566309085663090856630908566309085663090856630908566309085663090856630908566309085663090856630908566309085663090856630908566309085663090856630908566309085663090856630908566309085663090856630908566309085713090857130908571309085713090857130908571309085713090857130908571309085713090857130908571309085713090857130908571309085713090857130908571309085713090857130908571309085713090857130908571309085713090857130908576309085763090857630908576309085763090857630908576309085763090857630908576309085763090857630908576309085763090857630908576309085763090857630908576309085763090857630908576309085763090857630908576309085763090858130908581309085813090858130908581309085813090858130908581309085813090858130908581309085813090858130908581309085813090858130908581309085813090858130908581309085813090858130908581309085813090858130908581309085863090858630908586309085863090858630908586309085863090858630908586309085863090858630908586309085863090858630908586309085863090858630908586309085863090858630908586309085863090858630908586309085863090858630908591309085913090859130908591309085913090859130908591309085913090859130908591309085913090859130908591309085913090859130908591309085913090859130908591309085913090859130908591309085913090859130908591309085913090859630908596309085963090859630908596309085963090859630908596309085963090859630908596309085963090859630908596309085963090859630908596309085963090859630908596309085963090859630908596309085963090859630908596309086013090860130908601309086013090860130908601309086013090860130908601309086013090860130908601309086013090860130908601309086013090860130908601309086013090860130908601309086013090860130908601309086013090860130908606309086063090860630908606309086063090860630908606309086063090860630908606309086063090860630908606309086063090860630908606309086063090860630908606309086063090860630908606309086063090860630908606309086063090861130908611309086113090861130908611309086113090861130908611309086113090861130908611309086113090861130908611309086113090861130908611309086113090861130908611309086113090861130908611309086113090861130908611309086163090861630908616309086163090861630908616309086163090861630908616309086163090861630908616309086163090861630908616309086163090861630908616309086163090861630908616309086163090861630908616309086163090861630908621309086213090862130908621309086213090862130908621309086213090862130908621309086213090862130908621309086213090862130908621309086213090862130908621309086213090862130908621309086213090862130908621309086213090862630908626309086263090862630908626309086263090862630908626309086263090862630908626309086263090862630908626309086263090862630908626309086263090862630908626309086263090862630908626309086263090862630908626309086313090863130908631309086313090863130908631309086313090863130908631309086313090863130908631309086313090863130908631309086313090863130908631309086313090863130908631309086313090863130908631309086313090863130908636309086363090863630908636309086363090863630908636309086363090863630908636309086363090863630908636309086363090863630908636309086363090863630908636309086363090863630908636309086363090863630908636309086363090864130908641309086413090864130908641309086413090864130908641309086413090864130908641309086413090864130908641309086413090864130908641309086413090864130908641309086413090864130908641309086413090864130908641309086463090864630908646309086463090864630908646309086463090864630908646309086463090864630908646309086463090864630908646309086463090864630908646309086463090864630908646309086463090864630908646309086463090864630908651309086513090865130908651309086513090865130908651309086513090865130908651309086513090865130908651309086513090865130908651309086513090865130908651309086513090865130908651309086513090865130908651309086513090865630908656309086563090865630908656309086563090865630908656309086563090865630908656309086563090865630908656309086563090865630908656309086563090865630908656309086563090865630908656309086563090865630908656309086613090866130908661309086613090866130908661309086613090866130908661309086613090866130908661309086613090866130908661309086613090866130908661309086613090866130908661309086613090866130908661309086613090866130908666309086663090866630908666309086663090866630908666309086663090866630908666309086663090866630908666309086663090866630908666309086663090866630908666309086663090866630908666309086663090866630908666309086663090867130908671309086713090867130908671309086713090867130908671309086713090867130908671309086713090867130908671309086713090867130908671309086713090867130908671309086713090867130908671309086713090867130908671309086763090867630908676309086763090867630908676309086763090867630908676309086763090867630908676309086763090867630908676309086763090867630908676309086763090867630908676309086763090867630908676309086763090867630908681309086813090868130908681309086813090868130908681309086813090868130908681309086813090868130908681309086813090868130908681309086813090868130908681309086813090868130908681309086813090868130908681309086813090868630908686309086863090868630908686309086863090868630908686309086863090868630908686309086863090868630908686309086863090868630908686309086863090868630908686309086863090868630908686309086863090868630908686309086913090869130908691309086913090869130908691309086913090869130908691309086913090869130908691309086913090869130908691309086913090869130908691309086913090869130908691309086913090869130908691309086913090869130908696309086963090869630908696309086963090869630908696309086963090869630908696309086963090869630908696309086963090869630908696309086963090869630908696309086963090869630908696309086963090869630908696309086963090870130908701309087013090870130908701309087013090870130908701309087013090870130908701309087013090870130908701309087013090870130908701309087013090870130908701309087013090870130908701309087013090870130908701309087063090870630908706309087063090870630908706309087063090870630908706309087063090870630908706309087063090870630908706309087063090870630908706309087063090870630908706309087063090870630908706309087063090870630908711309087113090871130908711309087113090871130908711309087113090871130908711309087113090871130908711309087113090871130908711309087113090871130908711309087113090871130908711309087113090871130908711309087113090871630908716309087163090871630908716309087163090871630908716309087163090871630908716309087163090871630908716309087163090871630908716309087163090871630908716309087163090871630908716309087163090871630908716309087213090872130908721309087213090872130908721309087213090872130908721309087213090872130908721309087213090872130908721309087213090872130908721309087213090872130908721309087213090872130908721309087213090872130908726309087263090872630908726309087263090872630908726309087263090872630908726309087263090872630908726309087263090872630908726309087263090872630908726309087263090872630908726309087263090872630908726309087263090873130908731309087313090873130908731309087313090873130908731309087313090873130908731309087313090873130908731309087313090873130908731309087313090873130908731309087313090873130908731309087313090873130908731309087363090873630908736309087363090873630908736309087363090873630908736309087363090873630908736309087363090873630908736309087363090873630908736309087363090873630908736309087363090873630908736309087363090873630908741309087413090874130908741309087413090874130908741309087413090874130908741309087413090874130908741309087413090874130908741309087413090874130908741309087413090874130908741309087413090874130908741309087413090874630908746309087463090874630908746309087463090874630908746309087463090874630908746309087463090874630908746309087463090874630908746309087463090874630908746309087463090874630908746309087463090874630908746309087513090875130908751309087513090875130908751309087513090875130908751309087513090875130908751309087513090875130908751309087513090875130908751309087513090875130908751309087513090875130908751309087513090875130908756309087563090875630908756309087563090875630908756309087563090875630908756309087563090875630908756309087563090875630908756309087563090875630908756309087563090875630908756309087563090875630908756309087563090876130908761309087613090876130908761309087613090876130908761309087613090876130908761309087613090876130908761309087613090876130908761309087613090876130908761309087613090876130908761309087613090876130908761309087663090876630908766309087663090876630908766309087663090876630908766309087663090876630908766309087663090876630908766309087663090876630908766309087663090876630908766309087663090876630908766309087663090876630908771309087713090877130908771309087713090877130908771309087713090877130908771309087713090877130908771309087713090877130908771309087713090877130908771309087713090877130908771309087713090877130908771309087713090877630908776309087763090877630908776309087763090877630908776309087763090877630908776309087763090877630908776309087763090877630908776309087763090877630908776309087763090877630908776309087763090877630908776309,
    85516780855167808551678085516780855167808551678085516780855167808551678085516780855167808551678085516780855167808551678085516780855167808551678085516780855167808551678085516780855167808551678085516780855167808556678085566780855667808556678085566780855667808556678085566780855667808556678085566780855667808556678085566780855667808556678085566780855667808556678085566780855667808556678085566780855667808556678085566780856167808561678085616780856167808561678085616780856167808561678085616780856167808561678085616780856167808561678085616780856167808561678085616780856167808561678085616780856167808561678085616780856167808561678085666780856667808566678085666780856667808566678085666780856667808566678085666780856667808566678085666780856667808566678085666780856667808566678085666780856667808566678085666780856667808566678085666780856667808571678085716780857167808571678085716780857167808571678085716780857167808571678085716780857167808571678085716780857167808571678085716780857167808571678085716780857167808571678085716780857167808571678085716780857667808576678085766780857667808576678085766780857667808576678085766780857667808576678085766780857667808576678085766780857667808576678085766780857667808576678085766780857667808576678085766780857667808576678085816780858167808581678085816780858167808581678085816780858167808581678085816780858167808581678085816780858167808581678085816780858167808581678085816780858167808581678085816780858167808581678085816780858167808586678085866780858667808586678085866780858667808586678085866780858667808586678085866780858667808586678085866780858667808586678085866780858667808586678085866780858667808586678085866780858667808586678085866780859167808591678085916780859167808591678085916780859167808591678085916780859167808591678085916780859167808591678085916780859167808591678085916780859167808591678085916780859167808591678085916780859167808591678085966780859667808596678085966780859667808596678085966780859667808596678085966780859667808596678085966780859667808596678085966780859667808596678085966780859667808596678085966780859667808596678085966780859667808601678086016780860167808601678086016780860167808601678086016780860167808601678086016780860167808601678086016780860167808601678086016780860167808601678086016780860167808601678086016780860167808601678086016780860667808606678086066780860667808606678086066780860667808606678086066780860667808606678086066780860667808606678086066780860667808606678086066780860667808606678086066780860667808606678086066780860667808606678086116780861167808611678086116780861167808611678086116780861167808611678086116780861167808611678086116780861167808611678086116780861167808611678086116780861167808611678086116780861167808611678086116780861167808616678086166780861667808616678086166780861667808616678086166780861667808616678086166780861667808616678086166780861667808616678086166780861667808616678086166780861667808616678086166780861667808616678086166780862167808621678086216780862167808621678086216780862167808621678086216780862167808621678086216780862167808621678086216780862167808621678086216780862167808621678086216780862167808621678086216780862167808621678086266780862667808626678086266780862667808626678086266780862667808626678086266780862667808626678086266780862667808626678086266780862667808626678086266780862667808626678086266780862667808626678086266780862667808631678086316780863167808631678086316780863167808631678086316780863167808631678086316780863167808631678086316780863167808631678086316780863167808631678086316780863167808631678086316780863167808631678086316780863667808636678086366780863667808636678086366780863667808636678086366780863667808636678086366780863667808636678086366780863667808636678086366780863667808636678086366780863667808636678086366780863667808636678086416780864167808641678086416780864167808641678086416780864167808641678086416780864167808641678086416780864167808641678086416780864167808641678086416780864167808641678086416780864167808641678086416780864167808646678086466780864667808646678086466780864667808646678086466780864667808646678086466780864667808646678086466780864667808646678086466780864667808646678086466780864667808646678086466780864667808646678086466780865167808651678086516780865167808651678086516780865167808651678086516780865167808651678086516780865167808651678086516780865167808651678086516780865167808651678086516780865167808651678086516780865167808651678086566780865667808656678086566780865667808656678086566780865667808656678086566780865667808656678086566780865667808656678086566780865667808656678086566780865667808656678086566780865667808656678086566780865667808661678086616780866167808661678086616780866167808661678086616780866167808661678086616780866167808661678086616780866167808661678086616780866167808661678086616780866167808661678086616780866167808661678086616780866667808666678086666780866667808666678086666780866667808666678086666780866667808666678086666780866667808666678086666780866667808666678086666780866667808666678086666780866667808666678086666780866667808666678086716780867167808671678086716780867167808671678086716780867167808671678086716780867167808671678086716780867167808671678086716780867167808671678086716780867167808671678086716780867167808671678086716780867167808676678086766780867667808676678086766780867667808676678086766780867667808676678086766780867667808676678086766780867667808676678086766780867667808676678086766780867667808676678086766780867667808676678086766780868167808681678086816780868167808681678086816780868167808681678086816780868167808681678086816780868167808681678086816780868167808681678086816780868167808681678086816780868167808681678086816780868167808681678086866780868667808686678086866780868667808686678086866780868667808686678086866780868667808686678086866780868667808686678086866780868667808686678086866780868667808686678086866780868667808686678086866780868667808691678086916780869167808691678086916780869167808691678086916780869167808691678086916780869167808691678086916780869167808691678086916780869167808691678086916780869167808691678086916780869167808691678086916780869667808696678086966780869667808696678086966780869667808696678086966780869667808696678086966780869667808696678086966780869667808696678086966780869667808696678086966780869667808696678086966780869667808696678087016780870167808701678087016780870167808701678087016780870167808701678087016780870167808701678087016780870167808701678087016780870167808701678087016780870167808701678087016780870167808701678087016780870167808706678087066780870667808706678087066780870667808706678087066780870667808706678087066780870667808706678087066780870667808706678087066780870667808706678087066780870667808706678087066780870667808706678087066780871167808711678087116780871167808711678087116780871167808711678087116780871167808711678087116780871167808711678087116780871167808711678087116780871167808711678087116780871167808711678087116780871167808711678087166780871667808716678087166780871667808716678087166780871667808716678087166780871667808716678087166780871667808716678087166780871667808716678087166780871667808716678087166780871667808716678087166780871667808721678087216780872167808721678087216780872167808721678087216780872167808721678087216780872167808721678087216780872167808721678087216780872167808721678087216780872167808721678087216780872167808721678087216780872667808726678087266780872667808726678087266780872667808726678087266780872667808726678087266780872667808726678087266780872667808726678087266780872667808726678087266780872667808726678087266780872667808726678087316780873167808731678087316780873167808731678087316780873167808731678087316780873167808731678087316780873167808731678087316780873167808731678087316780873167808731678087316780873167808731678087316780873167808736678087366780873667808736678087366780873667808736678087366780873667808736678087366780873667808736678087366780873667808736678087366780873667808736678087366780873667808736678087366780873667808736678087366780874167808741678087416780874167808741678087416780874167808741678087416780874167808741678087416780874167808741678087416780874167808741678087416780874167808741678087416780874167808741678087416780874167808741678087466780874667808746678087466780874667808746678087466780874667808746678087466780874667808746678087466780874667808746678087466780874667808746678087466780874667808746678087466780874667808746678087466780874667808751678087516780875167808751678087516780875167808751678087516780875167808751678087516780875167808751678087516780875167808751678087516780875167808751678087516780875167808751678087516780875167808751678087516780875667808756678087566780875667808756678087566780875667808756678087566780875667808756678087566780875667808756678087566780875667808756678087566780875667808756678087566780875667808756678087566780875667808756678087616780876167808761678087616780876167808761678087616780876167808761678087616780876167808761678087616780876167808761678087616780876167808761678087616780876167808761678087616780876167808761678087616780876167808766678087666780876667808766678087666780876667808766678087666780876667808766678087666780876667808766678087666780876667808766678087666780876667808766678087666780876667808766678087666780876667808766678087666780877167808771678087716780877167808771678087716780877167808771678087716780877167808771678087716780877167808771678087716780877167808771678087716780877167808771678087716780877167808771678087716780877167808771678087766780877667808776678087766780877667808776678087766780877667808776678087766780877667808776678087766780877667808776678087766780877667808776678087766780877667808776678087766780877667808776678087766780877667808781678087816780878167808781678087816780878167808781678087816780878167808781678087816780878167808781678087816780878167808781678087816780878167808781678087816780878167808781678087816780878167808781678087816780878667808786678087866780878667808786678087866780878667808786678087866780878667808786678087866780878667808786678087866780878667808786678087866780878667808786678087866780878667808786678087866780878667808786678,
    85601510856015108560151085601510856015108560151085601510856015108560151085601510856015108560151085601510856015108560151085601510856015108560151085601510856015108560151085601510856015108560151085601510856015108565151085651510856515108565151085651510856515108565151085651510856515108565151085651510856515108565151085651510856515108565151085651510856515108565151085651510856515108565151085651510856515108565151085651510857015108570151085701510857015108570151085701510857015108570151085701510857015108570151085701510857015108570151085701510857015108570151085701510857015108570151085701510857015108570151085701510857015108570151085751510857515108575151085751510857515108575151085751510857515108575151085751510857515108575151085751510857515108575151085751510857515108575151085751510857515108575151085751510857515108575151085751510857515108580151085801510858015108580151085801510858015108580151085801510858015108580151085801510858015108580151085801510858015108580151085801510858015108580151085801510858015108580151085801510858015108580151085801510858515108585151085851510858515108585151085851510858515108585151085851510858515108585151085851510858515108585151085851510858515108585151085851510858515108585151085851510858515108585151085851510858515108585151085901510859015108590151085901510859015108590151085901510859015108590151085901510859015108590151085901510859015108590151085901510859015108590151085901510859015108590151085901510859015108590151085901510859015108595151085951510859515108595151085951510859515108595151085951510859515108595151085951510859515108595151085951510859515108595151085951510859515108595151085951510859515108595151085951510859515108595151085951510860015108600151086001510860015108600151086001510860015108600151086001510860015108600151086001510860015108600151086001510860015108600151086001510860015108600151086001510860015108600151086001510860015108600151086051510860515108605151086051510860515108605151086051510860515108605151086051510860515108605151086051510860515108605151086051510860515108605151086051510860515108605151086051510860515108605151086051510860515108610151086101510861015108610151086101510861015108610151086101510861015108610151086101510861015108610151086101510861015108610151086101510861015108610151086101510861015108610151086101510861015108610151086101510861515108615151086151510861515108615151086151510861515108615151086151510861515108615151086151510861515108615151086151510861515108615151086151510861515108615151086151510861515108615151086151510861515108615151086201510862015108620151086201510862015108620151086201510862015108620151086201510862015108620151086201510862015108620151086201510862015108620151086201510862015108620151086201510862015108620151086201510862015108625151086251510862515108625151086251510862515108625151086251510862515108625151086251510862515108625151086251510862515108625151086251510862515108625151086251510862515108625151086251510862515108625151086251510863015108630151086301510863015108630151086301510863015108630151086301510863015108630151086301510863015108630151086301510863015108630151086301510863015108630151086301510863015108630151086301510863015108630151086351510863515108635151086351510863515108635151086351510863515108635151086351510863515108635151086351510863515108635151086351510863515108635151086351510863515108635151086351510863515108635151086351510863515108640151086401510864015108640151086401510864015108640151086401510864015108640151086401510864015108640151086401510864015108640151086401510864015108640151086401510864015108640151086401510864015108640151086401510864515108645151086451510864515108645151086451510864515108645151086451510864515108645151086451510864515108645151086451510864515108645151086451510864515108645151086451510864515108645151086451510864515108645151086501510865015108650151086501510865015108650151086501510865015108650151086501510865015108650151086501510865015108650151086501510865015108650151086501510865015108650151086501510865015108650151086501510865015108655151086551510865515108655151086551510865515108655151086551510865515108655151086551510865515108655151086551510865515108655151086551510865515108655151086551510865515108655151086551510865515108655151086551510866015108660151086601510866015108660151086601510866015108660151086601510866015108660151086601510866015108660151086601510866015108660151086601510866015108660151086601510866015108660151086601510866015108660151086651510866515108665151086651510866515108665151086651510866515108665151086651510866515108665151086651510866515108665151086651510866515108665151086651510866515108665151086651510866515108665151086651510866515108670151086701510867015108670151086701510867015108670151086701510867015108670151086701510867015108670151086701510867015108670151086701510867015108670151086701510867015108670151086701510867015108670151086701510867515108675151086751510867515108675151086751510867515108675151086751510867515108675151086751510867515108675151086751510867515108675151086751510867515108675151086751510867515108675151086751510867515108675151086801510868015108680151086801510868015108680151086801510868015108680151086801510868015108680151086801510868015108680151086801510868015108680151086801510868015108680151086801510868015108680151086801510868015108685151086851510868515108685151086851510868515108685151086851510868515108685151086851510868515108685151086851510868515108685151086851510868515108685151086851510868515108685151086851510868515108685151086851510869015108690151086901510869015108690151086901510869015108690151086901510869015108690151086901510869015108690151086901510869015108690151086901510869015108690151086901510869015108690151086901510869015108690151086951510869515108695151086951510869515108695151086951510869515108695151086951510869515108695151086951510869515108695151086951510869515108695151086951510869515108695151086951510869515108695151086951510869515108700151087001510870015108700151087001510870015108700151087001510870015108700151087001510870015108700151087001510870015108700151087001510870015108700151087001510870015108700151087001510870015108700151087001510870515108705151087051510870515108705151087051510870515108705151087051510870515108705151087051510870515108705151087051510870515108705151087051510870515108705151087051510870515108705151087051510870515108705151087101510871015108710151087101510871015108710151087101510871015108710151087101510871015108710151087101510871015108710151087101510871015108710151087101510871015108710151087101510871015108710151087101510871015108715151087151510871515108715151087151510871515108715151087151510871515108715151087151510871515108715151087151510871515108715151087151510871515108715151087151510871515108715151087151510871515108715151087151510872015108720151087201510872015108720151087201510872015108720151087201510872015108720151087201510872015108720151087201510872015108720151087201510872015108720151087201510872015108720151087201510872015108720151087251510872515108725151087251510872515108725151087251510872515108725151087251510872515108725151087251510872515108725151087251510872515108725151087251510872515108725151087251510872515108725151087251510872515108730151087301510873015108730151087301510873015108730151087301510873015108730151087301510873015108730151087301510873015108730151087301510873015108730151087301510873015108730151087301510873015108730151087301510873515108735151087351510873515108735151087351510873515108735151087351510873515108735151087351510873515108735151087351510873515108735151087351510873515108735151087351510873515108735151087351510873515108735151087401510874015108740151087401510874015108740151087401510874015108740151087401510874015108740151087401510874015108740151087401510874015108740151087401510874015108740151087401510874015108740151087401510874015108745151087451510874515108745151087451510874515108745151087451510874515108745151087451510874515108745151087451510874515108745151087451510874515108745151087451510874515108745151087451510874515108745151087451510875015108750151087501510875015108750151087501510875015108750151087501510875015108750151087501510875015108750151087501510875015108750151087501510875015108750151087501510875015108750151087501510875015108750151087551510875515108755151087551510875515108755151087551510875515108755151087551510875515108755151087551510875515108755151087551510875515108755151087551510875515108755151087551510875515108755151087551510875515108760151087601510876015108760151087601510876015108760151087601510876015108760151087601510876015108760151087601510876015108760151087601510876015108760151087601510876015108760151087601510876015108760151087601510876515108765151087651510876515108765151087651510876515108765151087651510876515108765151087651510876515108765151087651510876515108765151087651510876515108765151087651510876515108765151087651510876515108765151087701510877015108770151087701510877015108770151087701510877015108770151087701510877015108770151087701510877015108770151087701510877015108770151087701510877015108770151087701510877015108770151087701510877015108775151087751510877515108775151087751510877515108775151087751510877515108775151087751510877515108775151087751510877515108775151087751510877515108775151087751510877515108775151087751510877515108775151087751510878015108780151087801510878015108780151087801510878015108780151087801510878015108780151087801510878015108780151087801510878015108780151087801510878015108780151087801510878015108780151087801510878015108780151087851510878515108785151087851510878515108785151087851510878515108785151087851510878515108785151087851510878515108785151087851510878515108785151087851510878515108785151087851510878515108785151087851510878515108790151087901510879015108790151087901510879015108790151087901510879015108790151087901510879015108790151087901510879015108790151087901510879015108790151087901510879015108790151087901510879015108790151087901510879515108795151087951510879515108795151087951510879515108795151087951510879515108795151087951510879515108795151087951510879515108795151087951510879515108795151087951510879515108795151087951510879515108795151,
    85673140856731408567314085673140856731408567314085673140856731408567314085673140856731408567314085673140856731408567314085673140856731408567314085673140856731408567314085673140856731408567314085673140856731408572314085723140857231408572314085723140857231408572314085723140857231408572314085723140857231408572314085723140857231408572314085723140857231408572314085723140857231408572314085723140857231408572314085723140857731408577314085773140857731408577314085773140857731408577314085773140857731408577314085773140857731408577314085773140857731408577314085773140857731408577314085773140857731408577314085773140857731408577314085823140858231408582314085823140858231408582314085823140858231408582314085823140858231408582314085823140858231408582314085823140858231408582314085823140858231408582314085823140858231408582314085823140858231408587314085873140858731408587314085873140858731408587314085873140858731408587314085873140858731408587314085873140858731408587314085873140858731408587314085873140858731408587314085873140858731408587314085873140859231408592314085923140859231408592314085923140859231408592314085923140859231408592314085923140859231408592314085923140859231408592314085923140859231408592314085923140859231408592314085923140859231408592314085973140859731408597314085973140859731408597314085973140859731408597314085973140859731408597314085973140859731408597314085973140859731408597314085973140859731408597314085973140859731408597314085973140859731408602314086023140860231408602314086023140860231408602314086023140860231408602314086023140860231408602314086023140860231408602314086023140860231408602314086023140860231408602314086023140860231408602314086023140860731408607314086073140860731408607314086073140860731408607314086073140860731408607314086073140860731408607314086073140860731408607314086073140860731408607314086073140860731408607314086073140860731408607314086123140861231408612314086123140861231408612314086123140861231408612314086123140861231408612314086123140861231408612314086123140861231408612314086123140861231408612314086123140861231408612314086123140861231408617314086173140861731408617314086173140861731408617314086173140861731408617314086173140861731408617314086173140861731408617314086173140861731408617314086173140861731408617314086173140861731408617314086173140862231408622314086223140862231408622314086223140862231408622314086223140862231408622314086223140862231408622314086223140862231408622314086223140862231408622314086223140862231408622314086223140862231408622314086273140862731408627314086273140862731408627314086273140862731408627314086273140862731408627314086273140862731408627314086273140862731408627314086273140862731408627314086273140862731408627314086273140862731408632314086323140863231408632314086323140863231408632314086323140863231408632314086323140863231408632314086323140863231408632314086323140863231408632314086323140863231408632314086323140863231408632314086323140863731408637314086373140863731408637314086373140863731408637314086373140863731408637314086373140863731408637314086373140863731408637314086373140863731408637314086373140863731408637314086373140863731408637314086423140864231408642314086423140864231408642314086423140864231408642314086423140864231408642314086423140864231408642314086423140864231408642314086423140864231408642314086423140864231408642314086423140864231408647314086473140864731408647314086473140864731408647314086473140864731408647314086473140864731408647314086473140864731408647314086473140864731408647314086473140864731408647314086473140864731408647314086473140865231408652314086523140865231408652314086523140865231408652314086523140865231408652314086523140865231408652314086523140865231408652314086523140865231408652314086523140865231408652314086523140865231408652314086573140865731408657314086573140865731408657314086573140865731408657314086573140865731408657314086573140865731408657314086573140865731408657314086573140865731408657314086573140865731408657314086573140865731408662314086623140866231408662314086623140866231408662314086623140866231408662314086623140866231408662314086623140866231408662314086623140866231408662314086623140866231408662314086623140866231408662314086623140866731408667314086673140866731408667314086673140866731408667314086673140866731408667314086673140866731408667314086673140866731408667314086673140866731408667314086673140866731408667314086673140866731408667314086723140867231408672314086723140867231408672314086723140867231408672314086723140867231408672314086723140867231408672314086723140867231408672314086723140867231408672314086723140867231408672314086723140867231408677314086773140867731408677314086773140867731408677314086773140867731408677314086773140867731408677314086773140867731408677314086773140867731408677314086773140867731408677314086773140867731408677314086773140868231408682314086823140868231408682314086823140868231408682314086823140868231408682314086823140868231408682314086823140868231408682314086823140868231408682314086823140868231408682314086823140868231408682314086873140868731408687314086873140868731408687314086873140868731408687314086873140868731408687314086873140868731408687314086873140868731408687314086873140868731408687314086873140868731408687314086873140868731408692314086923140869231408692314086923140869231408692314086923140869231408692314086923140869231408692314086923140869231408692314086923140869231408692314086923140869231408692314086923140869231408692314086923140869731408697314086973140869731408697314086973140869731408697314086973140869731408697314086973140869731408697314086973140869731408697314086973140869731408697314086973140869731408697314086973140869731408697314087023140870231408702314087023140870231408702314087023140870231408702314087023140870231408702314087023140870231408702314087023140870231408702314087023140870231408702314087023140870231408702314087023140870231408707314087073140870731408707314087073140870731408707314087073140870731408707314087073140870731408707314087073140870731408707314087073140870731408707314087073140870731408707314087073140870731408707314087073140871231408712314087123140871231408712314087123140871231408712314087123140871231408712314087123140871231408712314087123140871231408712314087123140871231408712314087123140871231408712314087123140871231408712314087173140871731408717314087173140871731408717314087173140871731408717314087173140871731408717314087173140871731408717314087173140871731408717314087173140871731408717314087173140871731408717314087173140871731408722314087223140872231408722314087223140872231408722314087223140872231408722314087223140872231408722314087223140872231408722314087223140872231408722314087223140872231408722314087223140872231408722314087223140872731408727314087273140872731408727314087273140872731408727314087273140872731408727314087273140872731408727314087273140872731408727314087273140872731408727314087273140872731408727314087273140872731408727314087323140873231408732314087323140873231408732314087323140873231408732314087323140873231408732314087323140873231408732314087323140873231408732314087323140873231408732314087323140873231408732314087323140873231408737314087373140873731408737314087373140873731408737314087373140873731408737314087373140873731408737314087373140873731408737314087373140873731408737314087373140873731408737314087373140873731408737314087373140874231408742314087423140874231408742314087423140874231408742314087423140874231408742314087423140874231408742314087423140874231408742314087423140874231408742314087423140874231408742314087423140874231408742314087473140874731408747314087473140874731408747314087473140874731408747314087473140874731408747314087473140874731408747314087473140874731408747314087473140874731408747314087473140874731408747314087473140874731408752314087523140875231408752314087523140875231408752314087523140875231408752314087523140875231408752314087523140875231408752314087523140875231408752314087523140875231408752314087523140875231408752314087523140875731408757314087573140875731408757314087573140875731408757314087573140875731408757314087573140875731408757314087573140875731408757314087573140875731408757314087573140875731408757314087573140875731408757314087623140876231408762314087623140876231408762314087623140876231408762314087623140876231408762314087623140876231408762314087623140876231408762314087623140876231408762314087623140876231408762314087623140876231408767314087673140876731408767314087673140876731408767314087673140876731408767314087673140876731408767314087673140876731408767314087673140876731408767314087673140876731408767314087673140876731408767314087673140877231408772314087723140877231408772314087723140877231408772314087723140877231408772314087723140877231408772314087723140877231408772314087723140877231408772314087723140877231408772314087723140877231408772314087773140877731408777314087773140877731408777314087773140877731408777314087773140877731408777314087773140877731408777314087773140877731408777314087773140877731408777314087773140877731408777314087773140877731408782314087823140878231408782314087823140878231408782314087823140878231408782314087823140878231408782314087823140878231408782314087823140878231408782314087823140878231408782314087823140878231408782314087823140878731408787314087873140878731408787314087873140878731408787314087873140878731408787314087873140878731408787314087873140878731408787314087873140878731408787314087873140878731408787314087873140878731408787314087923140879231408792314087923140879231408792314087923140879231408792314087923140879231408792314087923140879231408792314087923140879231408792314087923140879231408792314087923140879231408792314087923140879231408797314087973140879731408797314087973140879731408797314087973140879731408797314087973140879731408797314087973140879731408797314087973140879731408797314087973140879731408797314087973140879731408797314087973140880231408802314088023140880231408802314088023140880231408802314088023140880231408802314088023140880231408802314088023140880231408802314088023140880231408802314088023140880231408802314088023140880231408802314,
    85735190857351908573519085735190857351908573519085735190857351908573519085735190857351908573519085735190857351908573519085735190857351908573519085735190857351908573519085735190857351908573519085735190857351908578519085785190857851908578519085785190857851908578519085785190857851908578519085785190857851908578519085785190857851908578519085785190857851908578519085785190857851908578519085785190857851908578519085785190858351908583519085835190858351908583519085835190858351908583519085835190858351908583519085835190858351908583519085835190858351908583519085835190858351908583519085835190858351908583519085835190858351908583519085885190858851908588519085885190858851908588519085885190858851908588519085885190858851908588519085885190858851908588519085885190858851908588519085885190858851908588519085885190858851908588519085885190858851908593519085935190859351908593519085935190859351908593519085935190859351908593519085935190859351908593519085935190859351908593519085935190859351908593519085935190859351908593519085935190859351908593519085935190859851908598519085985190859851908598519085985190859851908598519085985190859851908598519085985190859851908598519085985190859851908598519085985190859851908598519085985190859851908598519085985190859851908598519086035190860351908603519086035190860351908603519086035190860351908603519086035190860351908603519086035190860351908603519086035190860351908603519086035190860351908603519086035190860351908603519086035190860351908608519086085190860851908608519086085190860851908608519086085190860851908608519086085190860851908608519086085190860851908608519086085190860851908608519086085190860851908608519086085190860851908608519086085190861351908613519086135190861351908613519086135190861351908613519086135190861351908613519086135190861351908613519086135190861351908613519086135190861351908613519086135190861351908613519086135190861351908613519086185190861851908618519086185190861851908618519086185190861851908618519086185190861851908618519086185190861851908618519086185190861851908618519086185190861851908618519086185190861851908618519086185190861851908623519086235190862351908623519086235190862351908623519086235190862351908623519086235190862351908623519086235190862351908623519086235190862351908623519086235190862351908623519086235190862351908623519086235190862851908628519086285190862851908628519086285190862851908628519086285190862851908628519086285190862851908628519086285190862851908628519086285190862851908628519086285190862851908628519086285190862851908628519086335190863351908633519086335190863351908633519086335190863351908633519086335190863351908633519086335190863351908633519086335190863351908633519086335190863351908633519086335190863351908633519086335190863351908638519086385190863851908638519086385190863851908638519086385190863851908638519086385190863851908638519086385190863851908638519086385190863851908638519086385190863851908638519086385190863851908638519086385190864351908643519086435190864351908643519086435190864351908643519086435190864351908643519086435190864351908643519086435190864351908643519086435190864351908643519086435190864351908643519086435190864351908643519086485190864851908648519086485190864851908648519086485190864851908648519086485190864851908648519086485190864851908648519086485190864851908648519086485190864851908648519086485190864851908648519086485190864851908653519086535190865351908653519086535190865351908653519086535190865351908653519086535190865351908653519086535190865351908653519086535190865351908653519086535190865351908653519086535190865351908653519086535190865851908658519086585190865851908658519086585190865851908658519086585190865851908658519086585190865851908658519086585190865851908658519086585190865851908658519086585190865851908658519086585190865851908658519086635190866351908663519086635190866351908663519086635190866351908663519086635190866351908663519086635190866351908663519086635190866351908663519086635190866351908663519086635190866351908663519086635190866351908668519086685190866851908668519086685190866851908668519086685190866851908668519086685190866851908668519086685190866851908668519086685190866851908668519086685190866851908668519086685190866851908668519086685190867351908673519086735190867351908673519086735190867351908673519086735190867351908673519086735190867351908673519086735190867351908673519086735190867351908673519086735190867351908673519086735190867351908673519086785190867851908678519086785190867851908678519086785190867851908678519086785190867851908678519086785190867851908678519086785190867851908678519086785190867851908678519086785190867851908678519086785190867851908683519086835190868351908683519086835190868351908683519086835190868351908683519086835190868351908683519086835190868351908683519086835190868351908683519086835190868351908683519086835190868351908683519086835190868851908688519086885190868851908688519086885190868851908688519086885190868851908688519086885190868851908688519086885190868851908688519086885190868851908688519086885190868851908688519086885190868851908688519086935190869351908693519086935190869351908693519086935190869351908693519086935190869351908693519086935190869351908693519086935190869351908693519086935190869351908693519086935190869351908693519086935190869351908698519086985190869851908698519086985190869851908698519086985190869851908698519086985190869851908698519086985190869851908698519086985190869851908698519086985190869851908698519086985190869851908698519086985190870351908703519087035190870351908703519087035190870351908703519087035190870351908703519087035190870351908703519087035190870351908703519087035190870351908703519087035190870351908703519087035190870351908703519087085190870851908708519087085190870851908708519087085190870851908708519087085190870851908708519087085190870851908708519087085190870851908708519087085190870851908708519087085190870851908708519087085190870851908713519087135190871351908713519087135190871351908713519087135190871351908713519087135190871351908713519087135190871351908713519087135190871351908713519087135190871351908713519087135190871351908713519087135190871851908718519087185190871851908718519087185190871851908718519087185190871851908718519087185190871851908718519087185190871851908718519087185190871851908718519087185190871851908718519087185190871851908718519087235190872351908723519087235190872351908723519087235190872351908723519087235190872351908723519087235190872351908723519087235190872351908723519087235190872351908723519087235190872351908723519087235190872351908728519087285190872851908728519087285190872851908728519087285190872851908728519087285190872851908728519087285190872851908728519087285190872851908728519087285190872851908728519087285190872851908728519087285190873351908733519087335190873351908733519087335190873351908733519087335190873351908733519087335190873351908733519087335190873351908733519087335190873351908733519087335190873351908733519087335190873351908733519087385190873851908738519087385190873851908738519087385190873851908738519087385190873851908738519087385190873851908738519087385190873851908738519087385190873851908738519087385190873851908738519087385190873851908743519087435190874351908743519087435190874351908743519087435190874351908743519087435190874351908743519087435190874351908743519087435190874351908743519087435190874351908743519087435190874351908743519087435190874851908748519087485190874851908748519087485190874851908748519087485190874851908748519087485190874851908748519087485190874851908748519087485190874851908748519087485190874851908748519087485190874851908748519087535190875351908753519087535190875351908753519087535190875351908753519087535190875351908753519087535190875351908753519087535190875351908753519087535190875351908753519087535190875351908753519087535190875351908758519087585190875851908758519087585190875851908758519087585190875851908758519087585190875851908758519087585190875851908758519087585190875851908758519087585190875851908758519087585190875851908758519087585190876351908763519087635190876351908763519087635190876351908763519087635190876351908763519087635190876351908763519087635190876351908763519087635190876351908763519087635190876351908763519087635190876351908763519087685190876851908768519087685190876851908768519087685190876851908768519087685190876851908768519087685190876851908768519087685190876851908768519087685190876851908768519087685190876851908768519087685190876851908773519087735190877351908773519087735190877351908773519087735190877351908773519087735190877351908773519087735190877351908773519087735190877351908773519087735190877351908773519087735190877351908773519087735190877851908778519087785190877851908778519087785190877851908778519087785190877851908778519087785190877851908778519087785190877851908778519087785190877851908778519087785190877851908778519087785190877851908778519087835190878351908783519087835190878351908783519087835190878351908783519087835190878351908783519087835190878351908783519087835190878351908783519087835190878351908783519087835190878351908783519087835190878351908788519087885190878851908788519087885190878851908788519087885190878851908788519087885190878851908788519087885190878851908788519087885190878851908788519087885190878851908788519087885190878851908788519087885190879351908793519087935190879351908793519087935190879351908793519087935190879351908793519087935190879351908793519087935190879351908793519087935190879351908793519087935190879351908793519087935190879351908793519087985190879851908798519087985190879851908798519087985190879851908798519087985190879851908798519087985190879851908798519087985190879851908798519087985190879851908798519087985190879851908798519087985190879851908803519088035190880351908803519088035190880351908803519088035190880351908803519088035190880351908803519088035190880351908803519088035190880351908803519088035190880351908803519088035190880351908803519088035190880851908808519088085190880851908808519088085190880851908808519088085190880851908808519088085190880851908808519088085190880851908808519088085190880851908808519088085190880851908808519088085190880851908808519,
    85789930857899308578993085789930857899308578993085789930857899308578993085789930857899308578993085789930857899308578993085789930857899308578993085789930857899308578993085789930857899308578993085789930857899308583992085839920858399208583992085839920858399208583992085839920858399208583992085839920858399208583992085839920858399208583992085839920858399208583992085839920858399208583992085839920858399208583992085839920858899308588993085889930858899308588993085889930858899308588993085889930858899308588993085889930858899308588993085889930858899308588993085889930858899308588993085889930858899308588993085889930858899308588993085939930859399308593993085939930859399308593993085939930859399308593993085939930859399308593993085939930859399308593993085939930859399308593993085939930859399308593993085939930859399308593993085939930859399308598993085989930859899308598993085989930859899308598993085989930859899308598993085989930859899308598993085989930859899308598993085989930859899308598993085989930859899308598993085989930859899308598993085989930860399308603993086039930860399308603993086039930860399308603993086039930860399308603993086039930860399308603993086039930860399308603993086039930860399308603993086039930860399308603993086039930860399308603993086089920860899208608992086089920860899208608992086089920860899208608992086089920860899208608992086089920860899208608992086089920860899208608992086089920860899208608992086089920860899208608992086089920860899208613993086139930861399308613993086139930861399308613993086139930861399308613993086139930861399308613993086139930861399308613993086139930861399308613993086139930861399308613993086139930861399308613993086139930861899308618993086189930861899308618993086189930861899308618993086189930861899308618993086189930861899308618993086189930861899308618993086189930861899308618993086189930861899308618993086189930861899308618993086239930862399308623993086239930862399308623993086239930862399308623993086239930862399308623993086239930862399308623993086239930862399308623993086239930862399308623993086239930862399308623993086239930862399308628993086289930862899308628993086289930862899308628993086289930862899308628993086289930862899308628993086289930862899308628993086289930862899308628993086289930862899308628993086289930862899308628993086289930863399208633992086339920863399208633992086339920863399208633992086339920863399208633992086339920863399208633992086339920863399208633992086339920863399208633992086339920863399208633992086339920863399208633992086389930863899308638993086389930863899308638993086389930863899308638993086389930863899308638993086389930863899308638993086389930863899308638993086389930863899308638993086389930863899308638993086389930863899308643993086439930864399308643993086439930864399308643993086439930864399308643993086439930864399308643993086439930864399308643993086439930864399308643993086439930864399308643993086439930864399308643993086439930864899308648993086489930864899308648993086489930864899308648993086489930864899308648993086489930864899308648993086489930864899308648993086489930864899308648993086489930864899308648993086489930864899308648993086539930865399308653993086539930865399308653993086539930865399308653993086539930865399308653993086539930865399308653993086539930865399308653993086539930865399308653993086539930865399308653993086539930865399308658993086589930865899308658993086589930865899308658993086589930865899308658993086589930865899308658993086589930865899308658993086589930865899308658993086589930865899308658993086589930865899308658993086589930866399308663993086639930866399308663993086639930866399308663993086639930866399308663993086639930866399308663993086639930866399308663993086639930866399308663993086639930866399308663993086639930866399308663993086689930866899308668993086689930866899308668993086689930866899308668993086689930866899308668993086689930866899308668993086689930866899308668993086689930866899308668993086689930866899308668993086689930866899308673993086739930867399308673993086739930867399308673993086739930867399308673993086739930867399308673993086739930867399308673993086739930867399308673993086739930867399308673993086739930867399308673993086739930867899308678993086789930867899308678993086789930867899308678993086789930867899308678993086789930867899308678993086789930867899308678993086789930867899308678993086789930867899308678993086789930867899308678993086839930868399308683993086839930868399308683993086839930868399308683993086839930868399308683993086839930868399308683993086839930868399308683993086839930868399308683993086839930868399308683993086839930868399308688993086889930868899308688993086889930868899308688993086889930868899308688993086889930868899308688993086889930868899308688993086889930868899308688993086889930868899308688993086889930868899308688993086889930869399308693993086939930869399308693993086939930869399308693993086939930869399308693993086939930869399308693993086939930869399308693993086939930869399308693993086939930869399308693993086939930869399308693993086989930869899308698993086989930869899308698993086989930869899308698993086989930869899308698993086989930869899308698993086989930869899308698993086989930869899308698993086989930869899308698993086989930869899308703993087039930870399308703993087039930870399308703993087039930870399308703993087039930870399308703993087039930870399308703993087039930870399308703993087039930870399308703993087039930870399308703993087039930870899208708992087089920870899208708992087089920870899208708992087089920870899208708992087089920870899208708992087089920870899208708992087089920870899208708992087089920870899208708992087089920870899208708992087139930871399308713993087139930871399308713993087139930871399308713993087139930871399308713993087139930871399308713993087139930871399308713993087139930871399308713993087139930871399308713993087139930871399308718993087189930871899308718993087189930871899308718993087189930871899308718993087189930871899308718993087189930871899308718993087189930871899308718993087189930871899308718993087189930871899308718993087189930872399308723993087239930872399308723993087239930872399308723993087239930872399308723993087239930872399308723993087239930872399308723993087239930872399308723993087239930872399308723993087239930872399308723993087289920872899208728992087289920872899208728992087289920872899208728992087289920872899208728992087289920872899208728992087289920872899208728992087289920872899208728992087289920872899208728992087289920872899208733993087339930873399308733993087339930873399308733993087339930873399308733993087339930873399308733993087339930873399308733993087339930873399308733993087339930873399308733993087339930873399308733993087339930873899308738993087389930873899308738993087389930873899308738993087389930873899308738993087389930873899308738993087389930873899308738993087389930873899308738993087389930873899308738993087389930873899308738993087439930874399308743993087439930874399308743993087439930874399308743993087439930874399308743993087439930874399308743993087439930874399308743993087439930874399308743993087439930874399308743993087439930874399308748993087489930874899308748993087489930874899308748993087489930874899308748993087489930874899308748993087489930874899308748993087489930874899308748993087489930874899308748993087489930874899308748993087489930875399308753993087539930875399308753993087539930875399308753993087539930875399308753993087539930875399308753993087539930875399308753993087539930875399308753993087539930875399308753993087539930875399308753993087589930875899308758993087589930875899308758993087589930875899308758993087589930875899308758993087589930875899308758993087589930875899308758993087589930875899308758993087589930875899308758993087589930875899308763993087639930876399308763993087639930876399308763993087639930876399308763993087639930876399308763993087639930876399308763993087639930876399308763993087639930876399308763993087639930876399308763993087639930876899308768993087689930876899308768993087689930876899308768993087689930876899308768993087689930876899308768993087689930876899308768993087689930876899308768993087689930876899308768993087689930876899308768993087739930877399308773993087739930877399308773993087739930877399308773993087739930877399308773993087739930877399308773993087739930877399308773993087739930877399308773993087739930877399308773993087739930877399308778993087789930877899308778993087789930877899308778993087789930877899308778993087789930877899308778993087789930877899308778993087789930877899308778993087789930877899308778993087789930877899308778993087789930878399308783993087839930878399308783993087839930878399308783993087839930878399308783993087839930878399308783993087839930878399308783993087839930878399308783993087839930878399308783993087839930878399308783993087889930878899308788993087889930878899308788993087889930878899308788993087889930878899308788993087889930878899308788993087889930878899308788993087889930878899308788993087889930878899308788993087889930878899308793993087939930879399308793993087939930879399308793993087939930879399308793993087939930879399308793993087939930879399308793993087939930879399308793993087939930879399308793993087939930879399308793993087939930879899308798993087989930879899308798993087989930879899308798993087989930879899308798993087989930879899308798993087989930879899308798993087989930879899308798993087989930879899308798993087989930879899308798993088039930880399308803993088039930880399308803993088039930880399308803993088039930880399308803993088039930880399308803993088039930880399308803993088039930880399308803993088039930880399308803993088039930880399308808993088089930880899308808993088089930880899308808993088089930880899308808993088089930880899308808993088089930880899308808993088089930880899308808993088089930880899308808993088089930880899308808993088089930881399308813993088139930881399308813993088139930881399308813993088139930881399308813993088139930881399308813993088139930881399308813993088139930881399308813993088139930881399308813993088139930881399308813993,
    85838890858388908583889085838890858388908583889085838890858388908583889085838890858388908583889085838890858388908583889085838890858388908583889085838890858388908583889085838890858388908583889085838890858388908588889085888890858888908588889085888890858888908588889085888890858888908588889085888890858888908588889085888890858888908588889085888890858888908588889085888890858888908588889085888890858888908588889085888890859388908593889085938890859388908593889085938890859388908593889085938890859388908593889085938890859388908593889085938890859388908593889085938890859388908593889085938890859388908593889085938890859388908593889085988890859888908598889085988890859888908598889085988890859888908598889085988890859888908598889085988890859888908598889085988890859888908598889085988890859888908598889085988890859888908598889085988890859888908603889086038890860388908603889086038890860388908603889086038890860388908603889086038890860388908603889086038890860388908603889086038890860388908603889086038890860388908603889086038890860388908603889086038890860888908608889086088890860888908608889086088890860888908608889086088890860888908608889086088890860888908608889086088890860888908608889086088890860888908608889086088890860888908608889086088890860888908608889086138890861388908613889086138890861388908613889086138890861388908613889086138890861388908613889086138890861388908613889086138890861388908613889086138890861388908613889086138890861388908613889086138890861388908618889086188890861888908618889086188890861888908618889086188890861888908618889086188890861888908618889086188890861888908618889086188890861888908618889086188890861888908618889086188890861888908618889086188890862388908623889086238890862388908623889086238890862388908623889086238890862388908623889086238890862388908623889086238890862388908623889086238890862388908623889086238890862388908623889086238890862388908623889086288890862888908628889086288890862888908628889086288890862888908628889086288890862888908628889086288890862888908628889086288890862888908628889086288890862888908628889086288890862888908628889086288890862888908633889086338890863388908633889086338890863388908633889086338890863388908633889086338890863388908633889086338890863388908633889086338890863388908633889086338890863388908633889086338890863388908633889086338890863888908638889086388890863888908638889086388890863888908638889086388890863888908638889086388890863888908638889086388890863888908638889086388890863888908638889086388890863888908638889086388890863888908638889086438890864388908643889086438890864388908643889086438890864388908643889086438890864388908643889086438890864388908643889086438890864388908643889086438890864388908643889086438890864388908643889086438890864388908648889086488890864888908648889086488890864888908648889086488890864888908648889086488890864888908648889086488890864888908648889086488890864888908648889086488890864888908648889086488890864888908648889086488890865388908653889086538890865388908653889086538890865388908653889086538890865388908653889086538890865388908653889086538890865388908653889086538890865388908653889086538890865388908653889086538890865388908653889086588890865888908658889086588890865888908658889086588890865888908658889086588890865888908658889086588890865888908658889086588890865888908658889086588890865888908658889086588890865888908658889086588890865888908663889086638890866388908663889086638890866388908663889086638890866388908663889086638890866388908663889086638890866388908663889086638890866388908663889086638890866388908663889086638890866388908663889086638890866888908668889086688890866888908668889086688890866888908668889086688890866888908668889086688890866888908668889086688890866888908668889086688890866888908668889086688890866888908668889086688890866888908668889086738890867388908673889086738890867388908673889086738890867388908673889086738890867388908673889086738890867388908673889086738890867388908673889086738890867388908673889086738890867388908673889086738890867388908678889086788890867888908678889086788890867888908678889086788890867888908678889086788890867888908678889086788890867888908678889086788890867888908678889086788890867888908678889086788890867888908678889086788890868388908683889086838890868388908683889086838890868388908683889086838890868388908683889086838890868388908683889086838890868388908683889086838890868388908683889086838890868388908683889086838890868388908683889086888890868888908688889086888890868888908688889086888890868888908688889086888890868888908688889086888890868888908688889086888890868888908688889086888890868888908688889086888890868888908688889086888890868888908693889086938890869388908693889086938890869388908693889086938890869388908693889086938890869388908693889086938890869388908693889086938890869388908693889086938890869388908693889086938890869388908693889086938890869888908698889086988890869888908698889086988890869888908698889086988890869888908698889086988890869888908698889086988890869888908698889086988890869888908698889086988890869888908698889086988890869888908698889087038890870388908703889087038890870388908703889087038890870388908703889087038890870388908703889087038890870388908703889087038890870388908703889087038890870388908703889087038890870388908703889087038890870388908708889087088890870888908708889087088890870888908708889087088890870888908708889087088890870888908708889087088890870888908708889087088890870888908708889087088890870888908708889087088890870888908708889087088890871388908713889087138890871388908713889087138890871388908713889087138890871388908713889087138890871388908713889087138890871388908713889087138890871388908713889087138890871388908713889087138890871388908713889087188890871888908718889087188890871888908718889087188890871888908718889087188890871888908718889087188890871888908718889087188890871888908718889087188890871888908718889087188890871888908718889087188890871888908723889087238890872388908723889087238890872388908723889087238890872388908723889087238890872388908723889087238890872388908723889087238890872388908723889087238890872388908723889087238890872388908723889087238890872888908728889087288890872888908728889087288890872888908728889087288890872888908728889087288890872888908728889087288890872888908728889087288890872888908728889087288890872888908728889087288890872888908728889087338890873388908733889087338890873388908733889087338890873388908733889087338890873388908733889087338890873388908733889087338890873388908733889087338890873388908733889087338890873388908733889087338890873388908738889087388890873888908738889087388890873888908738889087388890873888908738889087388890873888908738889087388890873888908738889087388890873888908738889087388890873888908738889087388890873888908738889087388890874388908743889087438890874388908743889087438890874388908743889087438890874388908743889087438890874388908743889087438890874388908743889087438890874388908743889087438890874388908743889087438890874388908743889087488890874888908748889087488890874888908748889087488890874888908748889087488890874888908748889087488890874888908748889087488890874888908748889087488890874888908748889087488890874888908748889087488890874888908753889087538890875388908753889087538890875388908753889087538890875388908753889087538890875388908753889087538890875388908753889087538890875388908753889087538890875388908753889087538890875388908753889087538890875888908758889087588890875888908758889087588890875888908758889087588890875888908758889087588890875888908758889087588890875888908758889087588890875888908758889087588890875888908758889087588890875888908758889087638890876388908763889087638890876388908763889087638890876388908763889087638890876388908763889087638890876388908763889087638890876388908763889087638890876388908763889087638890876388908763889087638890876388908768889087688890876888908768889087688890876888908768889087688890876888908768889087688890876888908768889087688890876888908768889087688890876888908768889087688890876888908768889087688890876888908768889087688890877388908773889087738890877388908773889087738890877388908773889087738890877388908773889087738890877388908773889087738890877388908773889087738890877388908773889087738890877388908773889087738890877388908773889087788890877888908778889087788890877888908778889087788890877888908778889087788890877888908778889087788890877888908778889087788890877888908778889087788890877888908778889087788890877888908778889087788890877888908783889087838890878388908783889087838890878388908783889087838890878388908783889087838890878388908783889087838890878388908783889087838890878388908783889087838890878388908783889087838890878388908783889087838890878888908788889087888890878888908788889087888890878888908788889087888890878888908788889087888890878888908788889087888890878888908788889087888890878888908788889087888890878888908788889087888890878888908788889087938890879388908793889087938890879388908793889087938890879388908793889087938890879388908793889087938890879388908793889087938890879388908793889087938890879388908793889087938890879388908793889087938890879388908798889087988890879888908798889087988890879888908798889087988890879888908798889087988890879888908798889087988890879888908798889087988890879888908798889087988890879888908798889087988890879888908798889087988890880388908803889088038890880388908803889088038890880388908803889088038890880388908803889088038890880388908803889088038890880388908803889088038890880388908803889088038890880388908803889088038890880388908803889088088890880888908808889088088890880888908808889088088890880888908808889088088890880888908808889088088890880888908808889088088890880888908808889088088890880888908808889088088890880888908808889088088890880888908813889088138890881388908813889088138890881388908813889088138890881388908813889088138890881388908813889088138890881388908813889088138890881388908813889088138890881388908813889088138890881388908813889088138890881888908818889088188890881888908818889088188890881888908818889088188890881888908818889088188890881888908818889088188890881888908818889088188890881888908818889088188890881888908818889088188890881888908818889]

/-- The files by name. -/
def database : List (String × PackedFile) :=
  [("scd96_c.json", scd96_c),
   ("acd96_c.json", acd96_c),
   ("plt96_c.json", plt96_c),
   ("prb96_c.json", prb96_c),
   ("ccd96_c.json", ccd96_c),
   ("scd96_li.json", scd96_li),
   ("acd96_li.json", acd96_li),
   ("plt96_li.json", plt96_li),
   ("prb96_li.json", prb96_li),
   ("ccd89_li.json", ccd89_li),
   ("scd96_ne.json", scd96_ne),
   ("acd96_ne.json", acd96_ne),
   ("plt96_ne.json", plt96_ne),
   ("prb96_ne.json", prb96_ne),
   ("ccd89_ne.json", ccd89_ne)]

end Hermes.AdasData
