/-! Generated by tools/gen_rows.py: the bits fixed by each encoding row (ones in the low half,
zeros in the high half). `Verif.Proofs.DecodeKeys` checks them against the rows. -/

namespace Verif.Proofs.Gen

def plainKeys : List Nat := [
  309237645367, 446676598807, 17111149707375, 18446602889544630375, 123265561395299,
  105673375354979, 52896817234019, 35304631193699, 17712445153379, 120259113059,
  123677878255619, 106085692215299, 88493506174979, 53309134094339, 35716948054019,
  18446743987810205715, 123540439302179, 105948253261859, 88356067221539, 88424786698259,
  70832600657939, 53240414617619, 18056042536979, 463856496659, 18302734902606434323,
  18302664533862273043, 13690978516508626963, 18302752357353521203, 13691066339999875123, 18302734765167480883,
  18302717172981440563, 18302699580795400243, 18302681988609359923, 18302664396423319603, 13690978379069673523,
  18302646804237279283, 18302629212051238963, 123626338648079, 18446743575493345395, 18442239975867023475,
  106034152607759, 18158637169311219763, 18158619577125179443, 18158601984939139123, 18158584392753098803,
  18158566800567058483, 18158549208381018163, 18158531616194977843, 18158514024008937523, 122647086108787,
  4450874608853107, 4433282422812787, 52278341947507, 4380505864691827, 4362913678651507,
  18437736376240701555, 17284814871902290035, 14978971863225466995, 17271304073023324275, 17870282823324139635,
  17149706883112632435, 15708554985509748855, 18158566744698912768, 18158566736108978178, 18158566607259959328,
  18158566598670024738, 18158549152512872448, 18158549143922937858, 18158549015073919008, 18158549006483984418,
  18158531560326832128, 18158531551736897538, 18158531422887878688, 18158531414297944098, 17870336368614309888,
  17870336360024375298, 17870336231175356448, 17870336222585421858, 17870318776428269568, 17870318767838334978,
  17870318638989316128, 17870318630399381538, 17870301184242229248, 17870301175652294658, 17870301046803275808,
  17870301038213341218, 17582105992529707008, 17582105983939772418, 17582105855090753568, 17582105846500818978,
  17582088400343666688, 17582088391753732098, 17582088262904713248, 17582088254314778658, 17582070808157626368,
  17582070799567691778, 17582070670718672928, 17582070662128738338, 16429184488191295488, 16429184479601360898,
  16429184350752342048, 16429184342162407458, 16429166896005255168, 16429166887415320578, 16429166758566301728,
  16429166749976367138, 16429149303819214848, 16429149295229280258, 16429149166380261408, 16429149157790326818,
  16140954112106692608, 16140954103516758018, 16140953974667739168, 16140953966077804578, 16140936519920652288,
  16140936511330717698, 16140936382481698848, 16140936373891764258, 16140918927734611968, 16140918919144677378,
  16140918790295658528, 16140918781705723938, 15852723736022089728, 15852723727432155138, 15852723598583136288,
  15852723589993201698, 15852706143836049408, 15852706135246114818, 15852706006397095968, 15852705997807161378,
  15852688551650009088, 15852688543060074498, 15852688414211055648, 15852688405621121058, 15564493359937486848,
  15564493351347552258, 15564493222498533408, 15564493213908598818, 15564475767751446528, 15564475759161511938,
  15564475630312493088, 15564475621722558498, 15564458175565406208, 15564458166975471618, 15564458038126452768,
  15564458029536518178, 15276262983852883968, 15276262975262949378, 15276262846413930528, 15276262837823995938,
  15276245391666843648, 15276245383076909058, 15276245254227890208, 15276245245637955618, 15276227799480803328,
  15276227790890868738, 15276227662041849888, 15276227653451915298, 14988032607768281088, 14988032599178346498,
  14988032470329327648, 14988032461739393058, 14988015015582240768, 14988015006992306178, 14988014878143287328,
  14988014869553352738, 14987997423396200448, 14987997414806265858, 14987997285957247008, 14987997277367312418,
  14699802231683678208, 14699802223093743618, 14699802094244724768, 14699802085654790178, 14699784639497637888,
  14699784630907703298, 14699784502058684448, 14699784493468749858, 14699767047311597568, 14699767038721662978,
  14699766909872644128, 14699766901282709538, 14411571855599075328, 14411571847009140738, 14411571718160121888,
  14411571709570187298, 14411554263413035008, 14411554254823100418, 14411554125974081568, 14411554117384146978,
  14411536671226994688, 14411536662637060098, 14411536533788041248, 14411536525198106658, 14123341479514472448,
  14123341470924537858, 14123341342075519008, 14123341333485584418, 14123323887328432128, 14123323878738497538,
  14123323749889478688, 14123323741299544098, 14123306295142391808, 14123306286552457218, 14123306157703438368,
  14123306149113503778, 13835111103429869568, 13835111094839934978, 13835110965990916128, 13835110957400981538,
  13835093511243829248, 13835093502653894658, 13835093373804875808, 13835093365214941218, 13835075919057788928,
  13835075910467854338, 13835075781618835488, 13835075773028900898, 13546880727345266688, 13546880718755332098,
  13546880589906313248, 13546880581316378658, 13546863135159226368, 13546863126569291778, 13546862997720272928,
  13546862989130338338, 13546845542973186048, 13546845534383251458, 13546845405534232608, 13546845396944298018,
  13258650351260663808, 13258650342670729218, 13258650213821710368, 13258650205231775778, 13258632759074623488,
  13258632750484688898, 13258632621635670048, 13258632613045735458, 13258615166888583168, 13258615158298648578,
  13258615029449629728, 13258615020859695138, 12970419975176060928, 12970419966586126338, 12970419837737107488,
  12970419829147172898, 12970402382990020608, 12970402374400086018, 12970402245551067168, 12970402236961132578,
  12970384790803980288, 12970384782214045698, 12970384653365026848, 12970384644775092258, 12682189599091458048,
  12682189590501523458, 12682189461652504608, 12682189453062570018, 12682172006905417728, 12682171998315483138,
  12682171869466464288, 12682171860876529698, 12682154414719377408, 12682154406129442818, 12682154277280423968,
  12682154268690489378, 12393959223006855168, 12393959214416920578, 12393959085567901728, 12393959076977967138,
  12393941630820814848, 12393941622230880258, 12393941493381861408, 12393941484791926818, 12393924038634774528,
  12393924030044839938, 12393923901195821088, 12393923892605886498, 12105728846922252288, 12105728838332317698,
  12105728709483298848, 12105728700893364258, 12105711254736211968, 12105711246146277378, 12105711117297258528,
  12105711108707323938, 12105693662550171648, 12105693653960237058, 12105693525111218208, 12105693516521283618,
  11241037718668443648, 11241037710078509058, 11241037581229490208, 11241037572639555618, 11241020126482403328,
  11241020117892468738, 11241019989043449888, 11241019980453515298, 11241002534296363008, 11241002525706428418,
  11241002396857409568, 11241002388267474978, 18158566675979436048, 18158566667389501458, 18158566538540482608,
  18158566529950548018, 18158549083793395728, 18158549075203461138, 18158548946354442288, 18158548937764507698,
  18158531491607355408, 18158531483017420818, 18158531354168401968, 18158531345578467378, 17870336299894833168,
  17870336291304898578, 17870336162455879728, 17870336153865945138, 17870318707708792848, 17870318699118858258,
  17870318570269839408, 17870318561679904818, 17870301115522752528, 17870301106932817938, 17870300978083799088,
  17870300969493864498, 17582105923810230288, 17582105915220295698, 17582105786371276848, 17582105777781342258,
  17582088331624189968, 17582088323034255378, 17582088194185236528, 17582088185595301938, 17582070739438149648,
  17582070730848215058, 17582070601999196208, 17582070593409261618, 17293875547725627408, 17293875539135692818,
  17293875410286673968, 17293875401696739378, 17293857955539587088, 17293857946949652498, 17293857818100633648,
  17293857809510699058, 17293840363353546768, 17293840354763612178, 17293840225914593328, 17293840217324658738,
  17005627579454984208, 17005627570865049618, 17005627442016030768, 17005627433426096178, 17005609987268943888,
  17005609978679009298, 17005609849829990448, 17005609841240055858, 16717397203370381328, 16717397194780446738,
  16717397065931427888, 16717397057341493298, 16717379611184341008, 16717379602594406418, 16717379473745387568,
  16717379465155452978, 16429166827285778448, 16429166818695843858, 16429166689846825008, 16429166681256890418,
  16429149235099738128, 16429149226509803538, 16429149097660784688, 16429149089070850098, 16140936451201175568,
  16140936442611240978, 16140936313762222128, 16140936305172287538, 16140918859015135248, 16140918850425200658,
  16140918721576181808, 16140918712986247218, 15276245322947366928, 15276245314357432338, 15276245185508413488,
  15276245176918478898, 15276227730761326608, 15276227722171392018, 15276227593322373168, 15276227584732438578,
  14988014946862764048, 14988014938272829458, 14988014809423810608, 14988014800833876018, 14987997354676723728,
  14987997346086789138, 14987997217237770288, 14987997208647835698, 14983511338712567826, 14983511201273614386,
  14983493746526527506, 14983493609087574066, 14695280962627964946, 14695280825189011506, 14695263370441924626,
  14695263233002971186, 14407050586543362066, 14407050449104408626, 14407032994357321746, 14407032856918368306,
  14118820210458759186, 14118820073019805746, 14118802618272718866, 14118802480833765426, 13546880658625789968,
  13546880650035855378, 13546880521186836528, 13546880512596901938, 13546863066439749648, 13546863057849815058,
  13546862929000796208, 13546862920410861618, 13546845474253709328, 13546845465663774738, 13546845336814755888,
  13546845328224821298, 12970419906456584208, 12970419897866649618, 12970419769017630768, 12970419760427696178,
  12970402314270543888, 12970402305680609298, 12970402176831590448, 12970402168241655858, 12970384722084503568,
  12970384713494568978, 12970384584645550128, 12970384576055615538, 13258650282541187088, 13258650273951252498,
  13258650145102233648, 13258650136512299058, 13258632690355146768, 13258632681765212178, 13258632552916193328,
  13258632544326258738, 13258615098169106448, 13258615089579171858, 13258614960730153008, 13258614952140218418,
  12682189530371981328, 12682189521782046738, 12682189392933027888, 12682189384343093298, 12682171938185941008,
  12682171929596006418, 12682171800746987568, 12682171792157052978, 12682154345999900688, 12682154337409966098,
  12682154208560947248, 12682154199971012658, 12393959154287378448, 12393959145697443858, 12393959016848425008,
  12393959008258490418, 12393941562101338128, 12393941553511403538, 12393941424662384688, 12393941416072450098,
  12393923969915297808, 12393923961325363218, 12393923832476344368, 12393923823886409778, 11817498402118172688,
  11817498393528238098, 11817498264679219248, 11817498256089284658, 11817480809932132368, 11817480801342197778,
  11817480672493178928, 11817480663903244338, 11817463217746092048, 11817463209156157458, 11817463080307138608,
  11817463071717204018, 12105728778202775568, 12105728769612840978, 12105728640763822128, 12105728632173887538,
  12105711186016735248, 12105711177426800658, 12105711048577781808, 12105711039987847218, 12105693593830694928,
  12105693585240760338, 12105693456391741488, 12105693447801806898, 11529268026033569808, 11529268017443635218,
  11529267888594616368, 11529267880004681778, 11529250433847529488, 11529250425257594898, 11529250296408576048,
  11529250287818641458, 11529232841661489168, 11529232833071554578, 11529232704222535728, 11529232695632601138,
  18158513950960910340, 18158513813521956900, 18158566718929108998, 18158566581490155558, 18158549126743068678,
  18158548989304115238, 18158531534557028358, 18158531397118074918, 17870283574876307460, 17870283437437354020,
  17870336342844506118, 17870336205405552678, 17870318750658465798, 17870318613219512358, 17870301158472425478,
  17870301021033472038, 17582053198791704580, 17582053061352751140, 17582105966759903238, 17582105829320949798,
  17582088374573862918, 17582088237134909478, 17582070782387822598, 17582070644948869158, 17005645223180632068,
  17005645214590697478, 17005645085741678628, 17005645077151744038, 17005627630994591748, 17005627622404657158,
  17005627493555638308, 17005627484965703718, 17005610038808551428, 17005610030218616838, 17005609901369597988,
  17005609892779663398, 16717414847096029188, 16717414838506094598, 16717414709657075748, 16717414701067141158,
  16717397254909988868, 16717397246320054278, 16717397117471035428, 16717397108881100838, 16717379662723948548,
  16717379654134013958, 16717379525284995108, 16717379516695060518, 14411519061861072900, 14411518924422119460,
  14411571829829271558, 14411571692390318118, 14411554237643231238, 14411554100204277798, 14411536645457190918,
  14411536508018237478, 18597241954325, 144133785284255765, 18442293388079267871, 18442275795893227551,
  18442258203707187231, 17289371883740856351, 17289354291554816031, 17289336699368775711, 18442293250640314431,
  18442275658454274111, 18442258066268233791, 17289371746301902911, 17289354154115862591, 17289336561929822271,
  16136450379402444831, 16136432787216404511, 16136415195030364191, 14983528875064033311, 14983511282877992991,
  14983493690691952671, 16136450241963491391, 16136432649777451071, 16136415057591410751, 14983528737625079871,
  14983511145439039551, 14983493553252999231, 13551313825084473375, 13551296232898433055, 13551278640712392735,
  13551313687645519935, 13551296095459479615, 13551278503273439295, 12682070306441923615, 18158566693159305228,
  18158566684569370638, 18158566555720351788, 18158566547130417198, 18158549100973264908, 18158549092383330318,
  18158548963534311468, 18158548954944376878, 18158531508787224588, 18158531500197289998, 18158531371348271148,
  18158531362758336558, 17582105940990099468, 17582105932400164878, 17582105803551146028, 17582105794961211438,
  17582088348804059148, 17582088340214124558, 17582088211365105708, 17582088202775171118, 17582070756618018828,
  17582070748028084238, 17582070619179065388, 17582070610589130798, 17293875564905496588, 17293875556315561998,
  17293875427466543148, 17293875418876608558, 17293857972719456268, 17293857964129521678, 17293857835280502828,
  17293857826690568238, 17293840380533415948, 17293840371943481358, 17293840243094462508, 17293840234504527918,
  17005627596634853388, 17005627588044918798, 17005627459195899948, 17005627450605965358, 17005610004448813068,
  17005609995858878478, 17005609867009859628, 17005609858419925038, 16717397220550250508, 16717397211960315918,
  16717397083111297068, 16717397074521362478, 16717379628364210188, 16717379619774275598, 16717379490925256748,
  16717379482335322158, 15852723684482482188, 15852723675892547598, 15852723547043528748, 15852723538453594158,
  15852706092296441868, 15852706083706507278, 15852705954857488428, 15852705946267553838, 15852688500110401548,
  15852688491520466958, 15852688362671448108, 15852688354081513518, 15276262932313276428, 15276262923723341838,
  15276262794874322988, 15276262786284388398, 15276245340127236108, 15276245331537301518, 15276245202688282668,
  15276245194098348078, 15276227747941195788, 15276227739351261198, 15276227610502242348, 15276227601912307758,
  15564493308397879308, 15564493299807944718, 15564493170958925868, 15564493162368991278, 15564475716211838988,
  15564475707621904398, 15564475578772885548, 15564475570182950958, 15564458124025798668, 15564458115435864078,
  15564457986586845228, 15564457977996910638, 14988032556228673548, 14988032547638738958, 14988032418789720108,
  14988032410199785518, 14988014964042633228, 14988014955452698638, 14988014826603679788, 14988014818013745198,
  14987997371856592908, 14987997363266658318, 14987997234417639468, 14987997225827704878, 13546880675805659148,
  13546880667215724558, 13546880538366705708, 13546880529776771118, 13546863083619618828, 13546863075029684238,
  13546862946180665388, 13546862937590730798, 13546845491433578508, 13546845482843643918, 13546845353994625068,
  13546845345404690478, 12970419923636453388, 12970419915046518798, 12970419786197499948, 12970419777607565358,
  12970402331450413068, 12970402322860478478, 12970402194011459628, 12970402185421525038, 12970384739264372748,
  12970384730674438158, 12970384601825419308, 12970384593235484718, 12682189547551850508, 12682189538961915918,
  12682189410112897068, 12682189401522962478, 12682171955365810188, 12682171946775875598, 12682171817926856748,
  12682171809336922158, 12682154363179769868, 12682154354589835278, 12682154225740816428, 12682154217150881838,
  12393959171467247628, 12393959162877313038, 12393959034028294188, 12393959025438359598, 12393941579281207308,
  12393941570691272718, 12393941441842253868, 12393941433252319278, 12393923987095166988, 12393923978505232398,
  12393923849656213548, 12393923841066278958, 12105728795382644748, 12105728786792710158, 12105728657943691308,
  12105728649353756718, 12105711203196604428, 12105711194606669838, 12105711065757650988, 12105711057167716398,
  12105693611010564108, 12105693602420629518, 12105693473571610668, 12105693464981676078, 17870336334254571528,
  17870336325664636938, 17870336196815618088, 17870336188225683498, 17870318742068531208, 17870318733478596618,
  17870318604629577768, 17870318596039643178, 17870301149882490888, 17870301141292556298, 17870301012443537448,
  17870301003853602858, 17582105958169968648, 17582105949580034058, 17582105820731015208, 17582105812141080618,
  17582088365983928328, 17582088357393993738, 17582088228544974888, 17582088219955040298, 17582070773797888008,
  17582070765207953418, 17582070636358934568, 17582070627768999978, 17293875582085365768, 17293875573495431178,
  17293875444646412328, 17293875436056477738, 17293857989899325448, 17293857981309390858, 17293857852460372008,
  17293857843870437418, 17293840397713285128, 17293840389123350538, 17293840260274331688, 17293840251684397098,
  15852723701662351368, 15852723693072416778, 15852723564223397928, 15852723555633463338, 15852706109476311048,
  15852706100886376458, 15852705972037357608, 15852705963447423018, 15852688517290270728, 15852688508700336138,
  15852688379851317288, 15852688371261382698, 15276262949493145608, 15276262940903211018, 15276262812054192168,
  15276262803464257578, 15276245357307105288, 15276245348717170698, 15276245219868151848, 15276245211278217258,
  15276227765121064968, 15276227756531130378, 15276227627682111528, 15276227619092176938, 15564493325577748488,
  15564493316987813898, 15564493188138795048, 15564493179548860458, 15564475733391708168, 15564475724801773578,
  15564475595952754728, 15564475587362820138, 15564458141205667848, 15564458132615733258, 15564458003766714408,
  15564457995176779818, 14988032573408542728, 14988032564818608138, 14988032435969589288, 14988032427379654698,
  14988014981222502408, 14988014972632567818, 14988014843783548968, 14988014835193614378, 14987997389036462088,
  14987997380446527498, 14987997251597508648, 14987997243007574058, 17577549590641508358, 17577549453202554918,
  16136450486776627206, 16136450349337673766, 16136432894590586886, 16136432757151633446, 16136415302404546566,
  16136415164965593126, 15848220110692024326, 15848219973253070886, 15848202518505984006, 15848202381067030566,
  15848184926319943686, 15848184788880990246, 15559989734607421446, 15559989597168468006, 15559972142421381126,
  15559972004982427686, 15559954550235340806, 15559954412796387366, 14983476205880082438, 14983476068441128998,
  13546880692985528328, 13546880684395593738, 13546880555546574888, 13546880546956640298, 13546863100799488008,
  13546863092209553418, 13546862963360534568, 13546862954770599978, 12970419940816322568, 12970419932226387978,
  12970419803377369128, 12970419794787434538, 12970402348630282248, 12970402340040347658, 12970402211191328808,
  12970402202601394218, 13258650316900925448, 13258650308310990858, 13258650179461972008, 13258650170872037418,
  13258632724714885128, 13258632716124950538, 13258632587275931688, 13258632578685997098, 12682189564731719688,
  12682189556141785098, 12682189427292766248, 12682189418702831658, 12682171972545679368, 12682171963955744778,
  12682171835106725928, 12682171826516791338, 11241037684308705288, 11241037675718770698, 11241037546869751848,
  11241037538279817258, 10664576932139499528, 10664576923549564938, 10664576794700546088, 10664576786110611498,
  10952807308224102408, 10952807299634167818, 10952807170785148968, 10952807162195214378, 10376346556054896648,
  10376346547464962058, 10376346418615943208, 10376346410026008618, 18158566641619697688, 17870336265535094808,
  17582105889450491928, 17293875513365889048, 18158549049433657368, 17870318673349054488, 17582088297264451608,
  17293857921179848728, 18158531457247617048, 17870301081163014168, 17582070705078411288, 17293840328993808408,
  18158566504180744248, 17870336128096141368, 17582105752011538488, 17293875375926935608, 18158548911994703928,
  17870318535910101048, 17582088159825498168, 17293857783740895288, 18158531319808663608, 17870300943724060728,
  17582070567639457848, 17293840191554854968, 17005644999842332728, 16717414623757729848, 16429184247673126968,
  16140953871588524088, 17005627407656292408, 16717397031571689528, 16429166655487086648, 16140936279402483768,
  17005609815470252088, 16717379439385649208, 16429149063301046328, 16140918687216443448, 15852723632942874648,
  15564493256858271768, 15276262880773668888, 14988032504689066008, 15852706040756834328, 15564475664672231448,
  15276245288587628568, 14988014912503025688, 15852688448570794008, 15564458072486191128, 15276227696401588248,
  14987997320316985368, 15852723495503921208, 15564493119419318328, 15276262743334715448, 14988032367250112568,
  15852705903317880888, 15564475527233278008, 15276245151148675128, 14988014775064072248, 15852688311131840568,
  15564457935047237688, 15276227558962634808, 14987997182878031928, 14699801991165509688, 14411571615080906808,
  14123341238996303928, 13835110862911701048, 14699784398979469368, 14411554022894866488, 14123323646810263608,
  13835093270725660728, 14699766806793429048, 14411536430708826168, 14123306054624223288, 13835075678539620408,
  13546880624266051608, 13546880615676117018, 13546880486827098168, 13546880478237163578, 13546863032080011288,
  13546863023490076698, 13546862894641057848, 13546862886051123258, 13546845439893970968, 13546845431304036378,
  13546845302455017528, 13546845293865082938, 11241037615589228568, 11241037606999293978, 11241037478150275128,
  11241037469560340538, 11241020023403188248, 11241020014813253658, 11241019885964234808, 11241019877374300218,
  11241002431217147928, 11241002422627213338, 11241002293778194488, 11241002285188259898, 10952807239504625688,
  10952807230914691098, 10952807102065672248, 10952807093475737658, 10952789647318585368, 10952789638728650778,
  10952789509879631928, 10952789501289697338, 10952772055132545048, 10952772046542610458, 10952771917693591608,
  10952771909103657018, 10664576863420022808, 10664576854830088218, 10664576725981069368, 10664576717391134778,
  10664559271233982488, 10664559262644047898, 10664559133795029048, 10664559125205094458, 10664541679047942168,
  10664541670458007578, 10664541541608988728, 10664541533019054138, 10088116111250817048, 10088116102660882458,
  10088115973811863608, 10088115965221929018, 10088098519064776728, 10088098510474842138, 10088098381625823288,
  10088098373035888698, 10088080926878736408, 10088080918288801818, 10088080789439782968, 10088080780849848378]

def guardedKeys : List Nat := [
  68719476847, 123248381526119, 140290811756647, 4486471297794067, 18442364083240960019,
  123609158778899, 105604655878259, 88012469837939, 70420283797619, 105054900068467,
  87462714028147, 35235911716979, 17643725676659, 51539636339, 34686155907187,
  17093969866867, 17010095294664147059, 17145344020973617267, 17005732432525131891, 15704192123370733687,
  17293805011544834167, 17149689823502532727, 17005574635460231287, 17289442149405818999, 17145326961363517559,
  17001211773321216119, 17149830560957333623, 17005715372915032183, 16861600184872730743, 16717344259375628407,
  16573229071333326967, 16429113883291025527, 16712981397236613239, 16568866209194311799, 16424751021152010359,
  16573369808788127863, 16429254620745826423, 16285139432703524983, 9795469413636374647, 9795451821450334327,
  9795434229264294007, 9795416637078253687, 2018690128687410181, 17005645107216515103, 17005627515030474783,
  17005609922844434463, 17005644969777561663, 17005627377591521343, 17005609785405481023, 17870336235470323743,
  17870318643284283423, 17870301051098243103, 16717414731131912223, 16717397138945871903, 16717379546759831583,
  17870336098031370303, 17870318505845329983, 17870300913659289663, 16717414593692958783, 16717397001506918463,
  16717379409320878143, 17582105859385720863, 17582088267199680543, 17582070675013640223, 16429184355047309343,
  16429166762861269023, 16429149170675228703, 17582105721946767423, 17582088129760727103, 17582070537574686783,
  16429184217608355903, 16429166625422315583, 16429149033236275263, 16140953978962706463, 16140936386776666143,
  16140918794590625823, 16140953841523753023, 16140936249337712703, 16140918657151672383, 14699802098539692063,
  14699784506353651743, 14699766914167611423, 14699801961100738623, 14699784368914698303, 14699766776728657983,
  15564493226793500703, 15564475634607460383, 15564458042421420063, 14411571722455089183, 14411554130269048863,
  14411536538083008543, 15564493089354547263, 15564475497168506943, 15564457904982466623, 14411571585016135743,
  14411553992830095423, 14411536400644055103, 15276262850708897823, 15276245258522857503, 15276227666336817183,
  14123341346370486303, 14123323754184445983, 14123306161998405663, 15276262713269944383, 15276245121083904063,
  15276227528897863743, 14123341208931532863, 14123323616745492543, 14123306024559452223, 13835110970285883423,
  13835093378099843103, 13835075785913802783, 13835110832846929983, 13835093240660889663, 13835075648474849343,
  10664576833355251743, 10664559241169211423, 10664541648983171103, 9511655329016840223, 9511637736830799903,
  9511620144644759583, 10664576695916298303, 10664559103730257983, 10664541511544217663, 9511655191577886783,
  9511637599391846463, 9511620007205806143]

end Verif.Proofs.Gen
