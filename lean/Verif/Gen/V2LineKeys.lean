/-! The bits fixed by each line of `Verif.Spec.V2Isa.listing` (ones in the low half, zeros in the high half).
`Verif.Proofs.V2Tables` checks them against the lines. -/

namespace Verif.Proofs.V2Isa

def lineKeys : List Nat := [
  309237645367, 446676598807, 68719476847, 123248381526119, 123265561395299,
  105673375354979, 52896817234019, 35304631193699, 17712445153379, 120259113059,
  123677878255619, 106085692215299, 88493506174979, 53309134094339, 35716948054019,
  123540439302179, 105948253261859, 88356067221539, 123609158778899, 88424786698259,
  70832600657939, 53240414617619, 18056042536979, 463856496659, 18302734902606434323,
  18302664533862273043, 13690978516508626963, 18302752357353521203, 13691066339999875123, 18302734765167480883,
  18302717172981440563, 18302699580795400243, 18302681988609359923, 18302664396423319603, 13690978379069673523,
  18302646804237279283, 18302629212051238963, 123626338648079, 8989308484771119119, 18446743575493345395,
  18442239975867023475, 105604655878259, 122647086108787, 35235911716979, 52278341947507,
  88012469837939, 4450874608853107, 70420283797619, 4433282422812787, 17643725676659,
  4380505864691827, 51539636339, 4362913678651507, 18158637169311219763, 18158619577125179443,
  18158601984939139123, 18158584392753098803, 18158566800567058483, 18158549208381018163, 18158531616194977843,
  18158514024008937523, 88476326305799, 88338887352359, 432345821925605443, 432345804745736263,
  432345787565867083, 432345770385997903, 18302629074612256851, 17726168322443051091, 17149707570273845331,
  16573246818104639571, 12101172389199478867, 15996909211237744723, 15996891619051704403, 15996874026865664083,
  15420448459068538963, 15420430866882498643, 4607182610999803987, 4602679011373482067, 2301462747625291859,
  6773501992158371923, 6773519584344412243, 6773537176530452563, 2301445155439251539, 3454261106661392467,
  3449757507035070547, 1148541243286880339, 13690943194697592883, 13690960786883633203, 13690995971255713843,
  11524817465024450579, 11520313865398128659, 11515810265771806739, 17582070864025772083, 17582053271839731763,
  17582106048397852723, 17582088456211812403, 11506803066519162899, 11502299466892840979, 17865832824888639539,
  11385205739137011763, 11385135370392850483, 11385135507831803923, 15528447164080476179, 10840199953079357459,
  106034152607759, 14978971863225466995, 17271304073023324275, 17870282823324139635, 9223372208653496407,
  9227735070792511575, 9227752113222742103, 9079257022725124183, 9083619884864139351, 9083636927294369879,
  175019946071, 18442364134780567559, 18298248946738266119, 17582176606087020551, 17870406982171623431,
  17293946230002417671, 2157347882208854023, 1441275541591162887, 1729505917675765767, 1153045165506560007,
  18262220149727690759, 15956377141050867719, 11344691123697221639, 2121319088989929479, 18442276173850365959,
  18298160985808064519, 17582088645156818951, 17870319021241421831, 17293858269072216071, 2157259921278652423,
  1441187580660961287, 1729417956745564167, 1152957204576358407, 18262132188797489159, 15956289180120666119,
  11344603162767020039, 2121231128059727879, 18442258581664325639, 18298143393622024199, 17582071052970778631,
  17870301429055381511, 17293840676886175751, 2157242329092612103, 1441169988474920967, 1729400364559523847,
  1152939612390318087, 18262114596611448839, 15956271587934625799, 11344585570580979719, 2121213535873687559,
  18226191352683560967, 2085290288187703303, 18226103391753359367, 2085202327257501703, 18226085799567319047,
  2085184735071461383, 18298248809265758247, 17582176468648067111, 17870406844732669991, 17293946092563464231,
  2157347744769900583, 1441275404152209447, 1729505780236812327, 1153045028067606567, 18298160848335556647,
  17582088507717865511, 17870318883802468391, 17293858131633262631, 2157259783839698983, 1441187443222007847,
  1729417819306610727, 1152957067137404967, 18298143256149516327, 17582070915531825191, 17870301291616428071,
  17293840539447222311, 2157242191653658663, 1441169851035967527, 1729400227120570407, 1152939474951364647,
  18262220012288737319, 15956377003611914279, 11344690986258268199, 2121318951550976039, 18248709350848724999,
  18248709213409771559, 18158637014658842711, 18158566645914681431, 18158584238100721751, 17582176262489636951,
  17582105893745475671, 17293875517660872791, 17293893109846913111, 17005715510320431191, 17005645141576269911,
  16717485134235828311, 16717414765491667031, 16429254758151225431, 16429184389407064151, 16141024382066622551,
  16140954013322461271, 15564563629897416791, 15564493261153255511, 15564510853339295831, 15276333253812813911,
  15276262885068652631, 15276280477254692951, 14988102877728211031, 14988032508984049751, 14988050101170090071,
  14699872501643608151, 14699802132899446871, 14699819725085487191, 14123341380730241111, 14123358972916281431,
  14123411749474402391, 13835111004645638231, 13835128596831678551, 13691066185381052503, 13690995816636891223,
  13691013408822931543, 13402835809296449623, 13258720621254148183, 13402765440552288343, 13258650252509986903,
  13402783032738328663, 13258667844696027223, 13114605433211846743, 13114535064467685463, 12826375057127243863,
  12682259869084942423, 12826304688383082583, 12682189500340781143, 11673453552788832343, 11668949953195016279,
  11673383184044671063, 11668879584450854999, 11673400776230711383, 11668897176636895319, 11241107988628373591,
  11241037619884212311, 11241055212070252631, 10952877612543770711, 10952807243799609431, 10952824835985649751,
  10664647236459167831, 10664576867715006551, 10376416860374564951, 10376346491630403671, 10088186484289962071,
  10088116115545800791, 10088133707731841111, 9799956108205359191, 9799885739461197911, 9799903331647238231,
  9511655363376595031, 9511672955562635351, 9223424987291992151, 9223442579478032471, 8935264979951550551,
  8935194611207389271, 8935212203393429591, 8647034603866947671, 8646964235122786391, 8646981827308826711,
  8358804227782344791, 8358733859038183511, 8070573851697741911, 8070503482953580631, 7494113099528536151,
  7494042730784374871, 7494060322970415191, 6917652347359330391, 6917581978615169111, 6921962432973779031,
  6921821695485456471, 6921540220508811351, 6920977270555521111, 6629421971274727511, 6629351602530566231,
  6629369194716606551, 6341191595190124631, 6341121226445963351, 6341138818632003671, 6052961219105521751,
  6052890850361360471, 6052908442547400791, 5764730843020918871, 5764660474276757591, 5764678066462797911,
  5476500466936315991, 5476430098192154711, 5476447690378195031, 5188270090851713111, 5188199722107551831,
  5188217314293592151, 4900039714767110231, 4899969346022948951, 4899986938208989271, 4611809338682507351,
  4611738969938346071, 4611756562124386391, 4323578962597904471, 4035348586513301591, 18158601830286762071,
  17870371454202159191, 17582141078117556311, 17293910702032953431, 17005680325948350551, 16717449949863747671,
  16429219573779144791, 16140989197694541911, 15852758821609939031, 15852688452865777751, 15564528445525336151,
  15564458076781174871, 15276298069440733271, 15276227700696571991, 14988067693356130391, 14987997324611969111,
  14123306196358160471, 13835075820273557591, 13551278675105685591, 13549026875258970199, 13548886137770647639,
  13686457032670994519, 12974254972949635159, 12974114235461312599, 12973973497972990039, 12973832760484667479,
  12398216433245397079, 12398075695757074519, 12397934958268751959, 12396105370920558679, 12535576221880721495,
  11529303180374450263, 11241072804289847383, 10952842428205244503, 10664612052120641623, 10376381676036038743,
  10088151299951435863, 9799920923866832983, 9511690547782230103, 9223460171697627223, 8935229795579469911,
  8935159426835308631, 8646999419494867031, 8646929050750705751, 8358769043410264151, 8358698674666102871,
  8070538667325661271, 8070468298581499991, 7782308291241058391, 7782237922496897111, 7494077915156455511,
  7494007546412294231, 7205847539071852631, 7205777170327691351, 6917617162987249751, 6917546794243088471,
  6341156410818043991, 6341086042073882711, 5764695658648838231, 5764625289904676951, 5188234906479632471,
  5188164537735471191, 4611774154310426711, 4611703785566265431, 4323543778225823831, 4323473409481662551,
  4035313402141220951, 4035243033397059671, 3747083026056618071, 3747012657312456791, 3458852649972015191,
  3458782281227853911, 3170622273887412311, 3170551905143251031, 2882391897802809431, 2882321529058648151,
  2594161521718206551, 2594091152974045271, 2305931145633603671, 2305860776889442391, 2017700769549000791,
  2017630400804839511, 1441240017379795031, 1441169648635633751, 1153009641295192151, 1152939272551030871,
  864779265210589271, 864708896466427991, 576548889125986391, 576478520381825111, 288248144297222231,
  88136956780631, 17768212619351]

end Verif.Proofs.V2Isa
