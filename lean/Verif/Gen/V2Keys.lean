/-! Generated by tools/gen_v2.py: the bits fixed by each row (ones in the low half, zeros in the
high half). `Verif.Proofs.V2Decode` checks them against the rows. -/

namespace Verif.Proofs.V2Isa

def keys : List Nat := [
  309237645367, 446676598807, 68719476847, 17111149707375, 123248381526119,
  140290811756647, 123265561395299, 105673375354979, 52896817234019, 35304631193699,
  17712445153379, 120259113059, 123677878255619, 106085692215299, 88493506174979,
  53309134094339, 35716948054019, 123540439302179, 105948253261859, 88356067221539,
  123609158778899, 18446743987810205715, 88424786698259, 70832600657939, 53240414617619,
  18056042536979, 463856496659, 18302734902606434323, 18302664533862273043, 13690978516508626963,
  18302752357353521203, 13691066339999875123, 18302734765167480883, 18302717172981440563, 18302699580795400243,
  18302681988609359923, 18302664396423319603, 13690978379069673523, 18302646804237279283, 18302629212051238963,
  17293946195441352719, 8989308484771119119, 18446743575493345395, 18442239975867023475, 17351667875895,
  17489106829335, 140651589009427, 140651589009427, 105467216928787, 87875030888467,
  70282844848147, 35098472767507, 17506286727187, 18302681576292503571, 18302734215411671091,
  18307114807208185875, 18302751945036664851, 18302751945036664851, 13803444812142104595, 13690995558938857491,
  13690995558938857491, 18302769399783751731, 18307132261922766899, 18307132261922766899, 13691083382430105651,
  18302751807597711411, 18302716623225630771, 18302699031039590451, 18302681438853550131, 13690995421499904051,
  18302663846667509811, 18302646254481469491, 18374827148440502287, 17361517232282140687, 18379172968149286927,
  17365863051990925327, 18379190010579517455, 17365880094421155855, 17365863051990925327, 105604655878259,
  88012469837939, 70420283797619, 105054900068467, 87462714028147, 122647086108787,
  4450874608853107, 4433282422812787, 35235911716979, 17643725676659, 51539636339,
  34686155907187, 17093969866867, 52278341947507, 4380505864691827, 4362913678651507,
  4611667931246366835, 106034152607759, 18158637169311219763, 18158619577125179443, 18158601984939139123,
  18158584392753098803, 18158566800567058483, 18158549208381018163, 18158531616194977843, 18158514024008937523,
  88476326305799, 88338887352359, 432345821925605443, 432345804745736263, 432345787565867083,
  432345770385997903, 18302629074612256851, 17726168322443051091, 17149707570273845331, 16573246818104639571,
  12101172389199478867, 15996909211237744723, 15996891619051704403, 15996874026865664083, 15420448459068538963,
  15420430866882498643, 4607182610999803987, 4602679011373482067, 2301462747625291859, 6773501992158371923,
  6773519584344412243, 6773537176530452563, 2301445155439251539, 3454261106661392467, 3449757507035070547,
  1148541243286880339, 9223372208653496407, 9227735070792511575, 9227752113222742103, 175019946071,
  9079257022725124183, 9083619884864139351, 9083636927294369879, 18442364134780567559, 18442276173850365959,
  18442258581664325639, 18298248946738266119, 18298160985808064519, 18298143393622024199, 18248709350815170567,
  18226191352683560967, 18226103391753359367, 18226085799567319047, 17109298645120843783, 17109210684190642183,
  17109193092004601863, 14803455636444020743, 14803367675513819143, 14803350083327778823, 10191769619090374663,
  10191681658160173063, 10191664065974132743, 968397584383082503, 968309623452880903, 968292031266840583,
  17582176606087020551, 17582088645156818951, 17582071052970778631, 17870406982171623431, 17870319021241421831,
  17870301429055381511, 17293946230002417671, 17293858269072216071, 17293840676886175751, 2157347882208854023,
  2157259921278652423, 2157242329092612103, 1441275541591162887, 1441187580660961287, 1441169988474920967,
  1729505917675765767, 1729417956745564167, 1729400364559523847, 1153045165506560007, 1152957204576358407,
  1152939612390318087, 18298248809265758247, 18298160848335556647, 18298143256149516327, 18248709213376217127,
  18226191215244607527, 18226103254314405927, 18226085662128365607, 17109298507681890343, 17109210546751688743,
  17109192954565648423, 14803455499005067303, 14803367538074865703, 14803349945888825383, 10191769481651421223,
  10191681520721219623, 10191663928535179303, 968397446944129063, 968309486013927463, 968291893827887143,
  17582176468648067111, 17582088507717865511, 17582070915531825191, 17870406844732669991, 17870318883802468391,
  17870301291616428071, 17293946092563464231, 17293858131633262631, 17293840539447222311, 2157347744769900583,
  2157259783839698983, 2157242191653658663, 1441275404152209447, 1441187443222007847, 1441169851035967527,
  1729505780236812327, 1729417819306610727, 1729400227120570407, 1153045028067606567, 1152957067137404967,
  1152939474951364647, 18158637014658842711, 18158566645914681431, 18158584238100721751, 17582176262489636951,
  17582105893745475671, 17293875517660872791, 17293893109846913111, 17005715510320431191, 17005645141576269911,
  16717485134235828311, 16717414765491667031, 16429254758151225431, 16429184389407064151, 16141024382066622551,
  16140954013322461271, 15564563629897416791, 15564493261153255511, 15564510853339295831, 15276333253812813911,
  15276262885068652631, 15276280477254692951, 14988102877728211031, 14988032508984049751, 14988050101170090071,
  14699872501643608151, 14699802132899446871, 14699819725085487191, 14123341380730241111, 14123358972916281431,
  14123411749474402391, 13835111004645638231, 13835128596831678551, 13691066185381052503, 13690995816636891223,
  13691013408822931543, 13258720621220593751, 13258650252476432471, 13258667844662472791, 13114605433211846743,
  13114535064467685463, 12682259869051387991, 12682189500307226711, 11673453552788832343, 11673383184044671063,
  11673400776230711383, 11668949953195016279, 11668879584450854999, 11668897176636895319, 11241107988628373591,
  11241037619884212311, 11241055212070252631, 10952877612543770711, 10952807243799609431, 10952824835985649751,
  10664647236459167831, 10664576867715006551, 10376416860374564951, 10376346491630403671, 10088186484289962071,
  10088116115545800791, 10088133707731841111, 9799956108205359191, 9799885739461197911, 9799903331647238231,
  9511655363376595031, 9511672955562635351, 9223424987291992151, 9223442579478032471, 8935264979951550551,
  8935194611207389271, 8935212203393429591, 8647034603866947671, 8646964235122786391, 8646981827308826711,
  8358804227782344791, 8358733859038183511, 8070573851697741911, 8070503482953580631, 7494113099528536151,
  7494042730784374871, 7494060322970415191, 6917652347359330391, 6917581978615169111, 6921962432940224599,
  6921821695451902039, 6921540220475256919, 6920977270521966679, 6629421971274727511, 6629351602530566231,
  6629369194716606551, 6341191595190124631, 6341121226445963351, 6341138818632003671, 6052961219105521751,
  6052890850361360471, 6052908442547400791, 5764730843020918871, 5764660474276757591, 5764678066462797911,
  5476500466936315991, 5476430098192154711, 5476447690378195031, 5188270090851713111, 5188199722107551831,
  5188217314293592151, 4900039714767110231, 4899969346022948951, 4899986938208989271, 4611809338682507351,
  4611738969938346071, 4611756562124386391, 4323578962597904471, 4035348586513301591, 18158601830286762071,
  17870371454202159191, 17582141078117556311, 17293910702032953431, 17005680325948350551, 16717449949863747671,
  16429219573779144791, 16140989197694541911, 15852758821609939031, 15852688452865777751, 15564528445525336151,
  15564458076781174871, 15276298069440733271, 15276227700696571991, 14988067693356130391, 14987997324611969111,
  14123306196358160471, 13835075820273557591, 11529303180340895831, 11241072804256292951, 10952842428171690071,
  10664612052087087191, 10376381676002484311, 10088151299917881431, 9799920923833278551, 9511690547748675671,
  9223460171664072791, 8935229795579469911, 8935159426835308631, 8646999419494867031, 8646929050750705751,
  8358769043410264151, 8358698674666102871, 8070538667325661271, 8070468298581499991, 7782308291241058391,
  7782237922496897111, 7494077915156455511, 7494007546412294231, 7205847539071852631, 7205777170327691351,
  6917617162987249751, 6917546794243088471, 6341156410818043991, 6341086042073882711, 5764695658648838231,
  5764625289904676951, 5188234906479632471, 5188164537735471191, 4611774154310426711, 4611703785566265431,
  4323543778225823831, 4323473409481662551, 4035313402141220951, 4035243033397059671, 3747083026056618071,
  3747012657312456791, 3458852649972015191, 3458782281227853911, 3170622273887412311, 3170551905143251031,
  2882391897802809431, 2882321529058648151, 2594161521718206551, 2594091152974045271, 2305931145633603671,
  2305860776889442391, 2017700769549000791, 2017630400804839511, 1441240017379795031, 1441169648635633751,
  1153009641295192151, 1152939272551030871, 864779265210589271, 864708896466427991, 576548889125986391,
  576478520381825111, 288318513041383511, 288248144297222231, 88136956780631, 17768212619351,
  13551278675072131159, 13549026875258970199, 13548886137770647639, 13686457032637440087, 12974536447926280279,
  12974395710437957719, 12974254972949635159, 12974114235461312599, 12973973497972990039, 12973832760484667479,
  12398216433245397079, 12398075695757074519, 12397934958268751959, 12396105370920558679, 12395964633432236119,
  13690943194697592883, 13690960786883633203, 13690995971255713843, 11524817465024450579, 11520313865398128659,
  11515810265771806739, 17582070864025772083, 17582053271839731763, 17582106048397852723, 17582088456211812403,
  11506803066519162899, 11502299466892840979, 11385205739137011763, 11385135370392850483, 15528447164080476179,
  10840199953079357459, 17865832824888639539, 11385135507831803923, 14978971863225466995, 17271304073023324275,
  17870282823324139635]

end Verif.Proofs.V2Isa
