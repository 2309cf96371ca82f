/-!
The tables of Src/Main/Modules/Maths/Calculus/legendre_root_and_weight_function.c:34-4987
`init_Legendre_root_function` and Src/Main/Modules/Maths/Calculus/lobatto_root_and_weight_function.c:34-600
`init_Lobatto_root_function`, copied by a script: every entry times 10^19.
-/
namespace Elliptica.RootTables

def legRow0 : List Int := []
def legRow1 : List Int := [0]
def legRow2 : List Int := [-5773502691896257640, 5773502691896257640]
def legRow3 : List Int := [-7745966692414833770, 0, 7745966692414833770]
def legRow4 : List Int := [-8611363115940525750, -3399810435848562650, 3399810435848562650, 8611363115940525750]
def legRow5 : List Int := [-9061798459386639930, -5384693101056830910, 0, 5384693101056830910, 9061798459386639930]
def legRow6 : List Int := [-9324695142031520280, -6612093864662645140, -2386191860831969090, 2386191860831969090, 6612093864662645140, 9324695142031520280]
def legRow7 : List Int := [-9491079123427585250, -7415311855993944400, -4058451513773971670, 0, 4058451513773971670, 7415311855993944400, 9491079123427585250]
def legRow8 : List Int := [-9602898564975362320, -7966664774136267400, -5255324099163289860, -1834346424956498050, 1834346424956498050, 5255324099163289860, 7966664774136267400, 9602898564975362320]
def legRow9 : List Int := [-9681602395076260900, -8360311073266357940, -6133714327005903970, -3242534234038089290, 0, 3242534234038089290, 6133714327005903970, 8360311073266357940, 9681602395076260900]
def legRow10 : List Int := [-9739065285171717200, -8650633666889845110, -6794095682990244060, -4333953941292471910, -1488743389816312110, 1488743389816312110, 4333953941292471910, 6794095682990244060, 8650633666889845110, 9739065285171717200]
def legRow11 : List Int := [-9782286581460569930, -8870625997680952990, -7301520055740493240, -5190961292068118160, -2695431559523449720, 0, 2695431559523449720, 5190961292068118160, 7301520055740493240, 8870625997680952990, 9782286581460569930]
def legRow12 : List Int := [-9815606342467192510, -9041172563704748570, -7699026741943046870, -5873179542866174470, -3678314989981801940, -1252334085114689150, 1252334085114689150, 3678314989981801940, 5873179542866174470, 7699026741943046870, 9041172563704748570, 9815606342467192510]
def legRow13 : List Int := [-9841830547185881490, -9175983992229779650, -8015780907333099130, -6423493394403402210, -4484927510364468530, -2304583159551347940, 0, 2304583159551347940, 4484927510364468530, 6423493394403402210, 8015780907333099130, 9175983992229779650, 9841830547185881490]
def legRow14 : List Int := [-9862838086968123390, -9284348836635735170, -8272013150697649930, -6872929048116854700, -5152486363581540920, -3191123689278897600, -1080549487073436620, 1080549487073436620, 3191123689278897600, 5152486363581540920, 6872929048116854700, 8272013150697649930, 9284348836635735170, 9862838086968123390]
def legRow15 : List Int := [-9879925180204854280, -9372733924007059040, -8482065834104272160, -7244177313601700470, -5709721726085388470, -3941513470775633700, -2011940939974345220, 0, 2011940939974345220, 3941513470775633700, 5709721726085388470, 7244177313601700470, 8482065834104272160, 9372733924007059040, 9879925180204854280]
def legRow16 : List Int := [-9894009349916499330, -9445750230732325760, -8656312023878317440, -7554044083550030340, -6178762444026437480, -4580167776572273860, -2816035507792589130, -950125098376374402, 950125098376374402, 2816035507792589130, 4580167776572273860, 6178762444026437480, 7554044083550030340, 8656312023878317440, 9445750230732325760, 9894009349916499330]
def legRow17 : List Int := [-9905754753144173360, -9506755217687677610, -8802391537269859020, -7815140038968014070, -6576711592166907660, -5126905370864769680, -3512317634538763150, -1784841814958478560, 0, 1784841814958478560, 3512317634538763150, 5126905370864769680, 6576711592166907660, 7815140038968014070, 8802391537269859020, 9506755217687677610, 9905754753144173360]
def legRow18 : List Int := [-9915651684209309470, -9558239495713977550, -8926024664975557390, -8037049589725231160, -6916870430603532080, -5597708310739475350, -4117511614628426460, -2518862256915055100, -847750130417353012, 847750130417353012, 2518862256915055100, 4117511614628426460, 5597708310739475350, 6916870430603532080, 8037049589725231160, 8926024664975557390, 9558239495713977550, 9915651684209309470]
def legRow19 : List Int := [-9924068438435844030, -9602081521348300310, -9031559036148179020, -8227146565371428250, -7209661773352293790, -6005453046616810240, -4645707413759609460, -3165640999636298320, -1603586456402253760, 0, 1603586456402253760, 3165640999636298320, 4645707413759609460, 6005453046616810240, 7209661773352293790, 8227146565371428250, 9031559036148179020, 9602081521348300310, 9924068438435844030]
def legRow20 : List Int := [-9931285991850949250, -9639719272779137910, -9122344282513259060, -8391169718222188230, -7463319064601507930, -6360536807265150250, -5108670019508270980, -3737060887154195610, -2277858511416450780, -765265211334973338, 765265211334973338, 2277858511416450780, 3737060887154195610, 5108670019508270980, 6360536807265150250, 7463319064601507930, 8391169718222188230, 9122344282513259060, 9639719272779137910, 9931285991850949250]
def legRow21 : List Int := [-9937521706203895000, -9672268385663062940, -9200993341504008290, -8533633645833172840, -7684399634756779090, -6671388041974123190, -5516188358872198070, -4243421202074387840, -2880213168024010970, -1455618541608950910, 0, 1455618541608950910, 2880213168024010970, 4243421202074387840, 5516188358872198070, 6671388041974123190, 7684399634756779090, 8533633645833172840, 9200993341504008290, 9672268385663062940, 9937521706203895000]
def legRow22 : List Int := [-9942945854823992920, -9700604978354287270, -9269567721871740000, -8658125777203001370, -7878168059792081620, -6944872631866827800, -5876404035069115930, -4693558379867570260, -3419358208920842250, -2078604266882212850, -697392733197222212, 697392733197222212, 2078604266882212850, 3419358208920842250, 4693558379867570260, 5876404035069115930, 6944872631866827800, 7878168059792081620, 8658125777203001370, 9269567721871740000, 9700604978354287270, 9942945854823992920]
def legRow23 : List Int := [-9947693349975521240, -9725424712181152320, -9329710868260161020, -8767523582704416670, -8048884016188398920, -7186613631319501940, -6196098757636461560, -5095014778460075500, -3903010380302908310, -2641356809703449310, -1332568242984661110, 0, 1332568242984661110, 2641356809703449310, 3903010380302908310, 5095014778460075500, 6196098757636461560, 7186613631319501940, 8048884016188398920, 8767523582704416670, 9329710868260161020, 9725424712181152320, 9947693349975521240]
def legRow24 : List Int := [-9951872199970213600, -9747285559713094980, -9382745520027327590, -8864155270044010340, -8200019859739029220, -7401241915785543640, -6480936519369755690, -5454214713888395360, -4337935076260451380, -3150426796961633740, -1911188674736163090, -640568928626056261, 640568928626056261, 1911188674736163090, 3150426796961633740, 4337935076260451380, 5454214713888395360, 6480936519369755690, 7401241915785543640, 8200019859739029220, 8864155270044010340, 9382745520027327590, 9747285559713094980, 9951872199970213600]
def legRow25 : List Int := [-9955569697904980980, -9766639214595175110, -9429745712289743390, -8949919978782753690, -8334426287608340010, -7592592630373576310, -6735663684734683650, -5776629302412229680, -4730027314457149610, -3611723058093878380, -2438668837209884320, -1228646926107103960, 0, 1228646926107103960, 2438668837209884320, 3611723058093878380, 4730027314457149610, 5776629302412229680, 6735663684734683650, 7592592630373576310, 8334426287608340010, 8949919978782753690, 9429745712289743390, 9766639214595175110, 9955569697904980980]
def legRow26 : List Int := [-9958857011456169290, -9783854459564709910, -9471590666617142500, -9026378619843070740, -8454459427884980190, -7763859488206788560, -6964272604199572650, -6066922930176180630, -5084407148245057180, -4030517551234863060, -2920048394859568950, -1768588203568901840, -592300934293132071, 592300934293132071, 1768588203568901840, 2920048394859568950, 4030517551234863060, 5084407148245057180, 6066922930176180630, 6964272604199572650, 7763859488206788560, 8454459427884980190, 9026378619843070740, 9471590666617142500, 9783854459564709910, 9958857011456169290]
def legRow27 : List Int := [-9961792628889885670, -9799234759615012230, -9509005578147050070, -9094823206774911040, -8562079080182944900, -7917716390705082270, -7170134737394236990, -6329079719464951410, -5405515645794568950, -4411482517500268810, -3359939036385089000, -2264593654395368590, -1139725856095299670, 0, 1139725856095299670, 2264593654395368590, 3359939036385089000, 4411482517500268810, 5405515645794568950, 6329079719464951410, 7170134737394236990, 7917716390705082270, 8562079080182944900, 9094823206774911040, 9509005578147050070, 9799234759615012230, 9961792628889885670]
def legRow28 : List Int := [-9964424975739544500, -9813031653708727540, -9542592806289381970, -9156330263921320740, -8658925225743950490, -8056413709171791710, -7356108780136317720, -6566510940388649610, -5697204718114017190, -4758742249551182610, -3762515160890787100, -2720616276351780780, -1645692821333807710, -550792898840342704, 550792898840342704, 1645692821333807710, 2720616276351780780, 3762515160890787100, 4758742249551182610, 5697204718114017190, 6566510940388649610, 7356108780136317720, 8056413709171791710, 8658925225743950490, 9156330263921320740, 9542592806289381970, 9813031653708727540, 9964424975739544500]
def legRow29 : List Int := [-9966794422605965860, -9825455052614131750, -9572855957780877260, -9211802329530587850, -8746378049201027900, -8181854876152524450, -7524628517344771340, -6782145376026865150, -5962817971382278200, -5075929551242276420, -4131528881740086640, -3140316378676399350, -2113522861660010750, -1062782301326792300, 0, 1062782301326792300, 2113522861660010750, 3140316378676399350, 4131528881740086640, 5075929551242276420, 5962817971382278200, 6782145376026865150, 7524628517344771340, 8181854876152524450, 8746378049201027900, 9211802329530587850, 9572855957780877260, 9825455052614131750, 9966794422605965860]
def legRow30 : List Int := [-9968934840746495400, -9836681232797472100, -9600218649683075120, -9262000474292743260, -8825605357920526820, -8295657623827683970, -7677774321048261950, -6978504947933157970, -6205261829892428610, -5366241481420198990, -4470337695380891770, -3527047255308781130, -2546369261678898460, -1538699136085835470, -514718425553176958, 514718425553176958, 1538699136085835470, 2546369261678898460, 3527047255308781130, 4470337695380891770, 5366241481420198990, 6205261829892428610, 6978504947933157970, 7677774321048261950, 8295657623827683970, 8825605357920526820, 9262000474292743260, 9600218649683075120, 9836681232797472100, 9968934840746495400]
def legRow31 : List Int := [-9970874818194770740, -9846859096651524840, -9625039250929496620, -9307569978966481650, -8897600299482710430, -8399203201462673400, -7817331484166249400, -7157767845868532840, -6427067229242603460, -5632491614071492630, -4781937820449024800, -3883859016082329430, -2947180699817016170, -1981211993355706290, -995553121523415203, 0, 995553121523415203, 1981211993355706290, 2947180699817016170, 3883859016082329430, 4781937820449024800, 5632491614071492630, 6427067229242603460, 7157767845868532840, 7817331484166249400, 8399203201462673400, 8897600299482710430, 9307569978966481650, 9625039250929496620, 9846859096651524840, 9970874818194770740]
def legRow32 : List Int := [-9972638618494815640, -9856115115452683350, -9647622555875064310, -9349060759377396890, -8963211557660521240, -8493676137325699700, -7944837959679424070, -7321821187402896800, -6630442669302152010, -5877157572407623290, -5068999089322293900, -4213512761306353450, -3318686022821276500, -2392873622521370750, -1444719615827964930, -483076656877383162, 483076656877383162, 1444719615827964930, 2392873622521370750, 3318686022821276500, 4213512761306353450, 5068999089322293900, 5877157572407623290, 6630442669302152010, 7321821187402896800, 7944837959679424070, 8493676137325699700, 8963211557660521240, 9349060759377396890, 9647622555875064310, 9856115115452683350, 9972638618494815640]
def legRow33 : List Int := [-9974246942464552170, -9864557262306424880, -9668229096899927690, -9386943726111683500, -9023167677434335830, -8580096526765040650, -8061623562741665900, -7472304964495621580, -6817319599697427860, -6102423458363790270, -5333899047863476440, -4518500172724506960, -3663392577480733410, -2776090971524970290, -1864392988279915720, -936310658547333857, 0, 936310658547333857, 1864392988279915720, 2776090971524970290, 3663392577480733410, 4518500172724506960, 5333899047863476440, 6102423458363790270, 6817319599697427860, 7472304964495621580, 8061623562741665900, 8580096526765040650, 9023167677434335830, 9386943726111683500, 9668229096899927690, 9864557262306424880, 9974246942464552170]
def legRow34 : List Int := [-9975717537908419190, -9872278164063094850, -9687082625333442820, -9421623974051070920, -9078096777183244690, -8659346383345644690, -8168842279009336650, -7610648766298730140, -6989391132162629080, -6310217270805285450, -5578755006697466430, -4801065451903270340, -3983592777586459410, -3133110813394632470, -2256666916164494840, -1361523572591829760, -455098219531025427, 455098219531025427, 1361523572591829760, 2256666916164494840, 3133110813394632470, 3983592777586459410, 4801065451903270340, 5578755006697466430, 6310217270805285450, 6989391132162629080, 7610648766298730140, 8168842279009336650, 8659346383345644690, 9078096777183244690, 9421623974051070920, 9687082625333442820, 9872278164063094850, 9975717537908419190]
def legRow35 : List Int := [-9977065690996002970, -9879357644438514980, -9704376160392298330, -9453451482078273290, -9128542613593176140, -8732191250252223310, -8267498990922254070, -7738102522869125550, -7148145015566287830, -6502243646658903890, -5805453447497645100, -5063227732414886150, -4281375415178142540, -3466015544308139460, -2623529412092960580, -1760510611659895700, -883713432756592636, 0, 883713432756592636, 1760510611659895700, 2623529412092960580, 3466015544308139460, 4281375415178142540, 5063227732414886150, 5805453447497645100, 6502243646658903890, 7148145015566287830, 7738102522869125550, 8267498990922254070, 8732191250252223310, 9128542613593176140, 9453451482078273290, 9704376160392298330, 9879357644438514980, 9977065690996002970]
def legRow36 : List Int := [-9978304624840858360, -9885864789022122380, -9720276910496979490, -9482729843995075450, -9174977745156590660, -8799298008903971320, -8358471669924753060, -7855762301322065130, -7294891715935565820, -6680012365855210620, -6015676581359805350, -5306802859262451620, -4558639444334202670, -3776725471196892160, -2966849953440282710, -2135008923168655790, -1287361038093847890, -430181984737086072, 430181984737086072, 1287361038093847890, 2135008923168655790, 2966849953440282710, 3776725471196892160, 4558639444334202670, 5306802859262451620, 6015676581359805350, 6680012365855210620, 7294891715935565820, 7855762301322065130, 8358471669924753060, 8799298008903971320, 9174977745156590660, 9482729843995075450, 9720276910496979490, 9885864789022122380, 9978304624840858360]
def legRow37 : List Int := [-9979445824779136490, -9891859632143191870, -9734930300564857440, -9509723432620948210, -9217814374124637430, -8861249621554860790, -8442529873405559680, -7964592005099022930, -7430788339819652630, -6844863091309593570, -6210926084089244830, -5533423918615817810, -4817108778032055540, -4067005093183261100, -3288374298837069990, -2486677927913657590, -1667539302398519770, -836704089547699019, 0, 836704089547699019, 1667539302398519770, 2486677927913657590, 3288374298837069990, 4067005093183261100, 4817108778032055540, 5533423918615817810, 6210926084089244830, 6844863091309593570, 7430788339819652630, 7964592005099022930, 8442529873405559680, 8861249621554860790, 9217814374124637430, 9509723432620948210, 9734930300564857440, 9891859632143191870, 9979445824779136490]
def legRow38 : List Int := [-9980499305356876200, -9897394542663855720, -9748463285901535080, -9534663309335295960, -9257413320485843970, -8918557390046322170, -8520350219323621890, -8065441676053168160, -7556859037539706810, -6997986803791843560, -6392544158296817070, -5744560210478070810, -5058347179279311030, -4338471694323764840, -3589724404794350130, -2817088097901652610, -2025704538921167030, -1220840253378674200, -407851479045782399, 407851479045782399, 1220840253378674200, 2025704538921167030, 2817088097901652610, 3589724404794350130, 4338471694323764840, 5058347179279311030, 5744560210478070810, 6392544158296817070, 6997986803791843560, 7556859037539706810, 8065441676053168160, 8520350219323621890, 8918557390046322170, 9257413320485843970, 9534663309335295960, 9748463285901535080, 9897394542663855720, 9980499305356876200]
def legRow39 : List Int := [-9981473830664329060, -9902515368546859840, -9760987093334710540, -9557752123246522770, -9294091484867382300, -8971671192929928880, -8592529379999061540, -8159062974301431040, -7674012429310635000, -7140444358945346790, -6561732134320109110, -5941534549572779890, -5283772686604374740, -4592605123091360490, -3872401639715614560, -3127715592481859230, -2363255124618357670, -1583853399978378000, -794438046087554776, 0, 794438046087554776, 1583853399978378000, 2363255124618357670, 3127715592481859230, 3872401639715614560, 4592605123091360490, 5283772686604374740, 5941534549572779890, 6561732134320109110, 7140444358945346790, 7674012429310635000, 8159062974301431040, 8592529379999061540, 8971671192929928880, 9294091484867382300, 9557752123246522770, 9760987093334710540, 9902515368546859840, 9981473830664329060]
def legRow40 : List Int := [-9982377097105592000, -9907262386994570060, -9772599499837742630, -9579168192137916560, -9328128082786765330, -9020988069688742970, -8659595032122595040, -8246122308333116630, -7783056514265193880, -7273182551899271030, -6719566846141795480, -6125538896679802380, -5494671250951282020, -4830758016861787130, -4137792043716050010, -3419940908257584730, -2681521850072536810, -1926975807013711000, -1160840706752552080, -387724175060508219, 387724175060508219, 1160840706752552080, 1926975807013711000, 2681521850072536810, 3419940908257584730, 4137792043716050010, 4830758016861787130, 5494671250951282020, 6125538896679802380, 6719566846141795480, 7273182551899271030, 7783056514265193880, 8246122308333116630, 8659595032122595040, 9020988069688742970, 9328128082786765330, 9579168192137916560, 9772599499837742630, 9907262386994570060, 9982377097105592000]
def legRow41 : List Int := [-9983215885747714410, -9911671096990163080, -9783386735610833840, -9599068917303462260, -9359769874978538260, -9066859447581011730, -8722015116924414090, -8327212004013613310, -7884711450474093730, -7397048030699261810, -6867015020349512900, -6297648390721963210, -5692209416102158700, -5054165991994060330, -4387172770514070890, -3695050226404814410, -2981762773418248660, -2251396056334227760, -1508133548639921640, -756232589891629969, 0, 756232589891629969, 1508133548639921640, 2251396056334227760, 2981762773418248660, 3695050226404814410, 4387172770514070890, 5054165991994060330, 5692209416102158700, 6297648390721963210, 6867015020349512900, 7397048030699261810, 7884711450474093730, 8327212004013613310, 8722015116924414090, 9066859447581011730, 9359769874978538260, 9599068917303462260, 9783386735610833840, 9911671096990163080, 9983215885747714410]
def legRow42 : List Int := [-9983996189900624150, -9915772883408609200, -9793425080637481940, -9617593653382044890, -9389235573549881780, -9109597249041274530, -8780205698121727430, -8402859832618169010, -7979620532554874130, -7512799356894804900, -7004945905561712140, -6458833888692478340, -5877445974851093230, -5263957499311922880, -4621719120704219300, -3954238520429750580, -3265161244654115120, -2558250793428790840, -1837368065648545510, -1106450272085198680, -369489431653517758, 369489431653517758, 1106450272085198680, 1837368065648545510, 2558250793428790840, 3265161244654115120, 3954238520429750580, 4621719120704219300, 5263957499311922880, 5877445974851093230, 6458833888692478340, 7004945905561712140, 7512799356894804900, 7979620532554874130, 8402859832618169010, 8780205698121727430, 9109597249041274530, 9389235573549881780, 9617593653382044890, 9793425080637481940, 9915772883408609200, 9983996189900624150]
def legRow43 : List Int := [-9984723322425077140, -9919595575932441460, -9802782209802553310, -9634866130140799930, -9416719568476378620, -9149479072061387290, -8834537652186168630, -8473537162093150490, -8068359641369386350, -7621117471949551210, -7134142352689570550, -6609973137514981330, -6051342596396009360, -5461163166600847190, -4842511767857347240, -4198613760292692530, -3532826128643038070, -2848619980329136270, -2149562448605182090, -1439298095107133110, -721529908745862354, 0, 721529908745862354, 1439298095107133110, 2149562448605182090, 2848619980329136270, 3532826128643038070, 4198613760292692530, 4842511767857347240, 5461163166600847190, 6051342596396009360, 6609973137514981330, 7134142352689570550, 7621117471949551210, 8068359641369386350, 8473537162093150490, 8834537652186168630, 9149479072061387290, 9416719568476378620, 9634866130140799930, 9802782209802553310, 9919595575932441460, 9984723322425077140]
def legRow44 : List Int := [-9985402006367742250, -9923163921385158080, -9811518330779139670, -9650996504224931390, -9442395091181940990, -9186752599841757740, -8885342382860432020, -8539665950047103790, -8151445396451350110, -7722614792487558990, -7255310536607170030, -6751860706661223650, -6214773459035758480, -5646724531854707680, -5050543913882023180, -4429201745254114840, -3785793520147071320, -3123524665027858120, -2445694569282012510, -1755680147755167860, -1056919017086532470, -352892369641353591, 352892369641353591, 1056919017086532470, 1755680147755167860, 2445694569282012510, 3123524665027858120, 3785793520147071320, 4429201745254114840, 5050543913882023180, 5646724531854707680, 6214773459035758480, 6751860706661223650, 7255310536607170030, 7722614792487558990, 8151445396451350110, 8539665950047103790, 8885342382860432020, 9186752599841757740, 9442395091181940990, 9650996504224931390, 9811518330779139670, 9923163921385158080, 9985402006367742250]
def legRow45 : List Int := [-9986036451819366380, -9926499984472037420, -9819687150345405680, -9666083103968946050, -9466416909956290620, -9221639367190003880, -8932916717532417380, -8601624759606642250, -8229342205020863370, -7817843125939062910, -7369088489454903530, -6885216807712005250, -6368533944532233590, -5821502125693531870, -5246728204629160670, -4646951239196350990, -4025029438585419140, -3383926542506021620, -2726697697523775610, -2056474897832637460, -1376452059832530290, -689869801631441725, 0, 689869801631441725, 1376452059832530290, 2056474897832637460, 2726697697523775610, 3383926542506021620, 4025029438585419140, 4646951239196350990, 5246728204629160670, 5821502125693531870, 6368533944532233590, 6885216807712005250, 7369088489454903530, 7817843125939062910, 8229342205020863370, 8601624759606642250, 8932916717532417380, 9221639367190003880, 9466416909956290620, 9666083103968946050, 9819687150345405680, 9926499984472037420, 9986036451819366380]
def legRow46 : List Int := [-9986630421338179810, -9929623489061743640, -9827336698041668640, -9680213918539919430, -9488923634460897960, -9254337988067539510, -8977527115339419660, -8659753948668580630, -8302468370660660530, -7907300570752742550, -7476053596156660540, -7010695120204056970, -6513348462019977150, -5986282897127151530, -5431903302618026350, -4852739183881646630, -4251433132828283970, -3630728770209957100, -2993458227018700150, -2342529222062697690, -1680911794671035290, -1011624753055842400, -337721900160520415, 337721900160520415, 1011624753055842400, 1680911794671035290, 2342529222062697690, 2993458227018700150, 3630728770209957100, 4251433132828283970, 4852739183881646630, 5431903302618026350, 5986282897127151530, 6513348462019977150, 7010695120204056970, 7476053596156660540, 7907300570752742550, 8302468370660660530, 8659753948668580630, 8977527115339419660, 9254337988067539510, 9488923634460897960, 9680213918539919430, 9827336698041668640, 9929623489061743640, 9986630421338179810]
def legRow47 : List Int := [-9987187285842121090, -9932552109877686350, -9834510030716237090, -9693467873265644970, -9510039692577084430, -9285026930123606480, -9019413294385253570, -8714360157968963170, -8371201398999021210, -7991437541677419430, -7576729184454386340, -7128889734090643020, -6649877473903327290, -6141786999563736090, -5606840059346641950, -5047375838635779200, -4465840731048557030, -3864777640846671400, -3246814863377359020, -2614654592149745700, -1971061102791118080, -1318848665545148970, -660869239163556752, 0, 660869239163556752, 1318848665545148970, 1971061102791118080, 2614654592149745700, 3246814863377359020, 3864777640846671400, 4465840731048557030, 5047375838635779200, 5606840059346641950, 6141786999563736090, 6649877473903327290, 7128889734090643020, 7576729184454386340, 7991437541677419430, 8371201398999021210, 8714360157968963170, 9019413294385253570, 9285026930123606480, 9510039692577084430, 9693467873265644970, 9834510030716237090, 9932552109877686350, 9987187285842121090]
def legRow48 : List Int := [-9987710072524261190, -9935301722663507580, -9841245837228268580, -9705915925462472500, -9529877031604308610, -9313866907065543330, -9058791367155696730, -8765720202742478860, -8435882616243935310, -8070662040294426270, -7671590325157403390, -7240341309238146550, -6778723796326639050, -6288673967765136240, -5772247260839727040, -5231609747222330340, -4669029047509584050, -4086864819907167300, -3487558862921607380, -2873624873554555770, -2247637903946890610, -1612223560688917180, -970046992094626989, -323801709628693620, 323801709628693620, 970046992094626989, 1612223560688917180, 2247637903946890610, 2873624873554555770, 3487558862921607380, 4086864819907167300, 4669029047509584050, 5231609747222330340, 5772247260839727040, 6288673967765136240, 6778723796326639050, 7240341309238146550, 7671590325157403390, 8070662040294426270, 8435882616243935310, 8765720202742478860, 9058791367155696730, 9313866907065543330, 9529877031604308610, 9705915925462472500, 9841245837228268580, 9935301722663507580, 9987710072524261190]
def legRow49 : List Int := [-9988201506066353790, -9937886619441677910, -9847578959142130040, -9717622009015553800, -9548536586741372340, -9341002947558101490, -9095856558280732850, -8814084455730089100, -8496821198441657010, -8145344273598554320, -7761068943454466350, -7345542542374026960, -6900438244251321140, -6427548324192376640, -5928776941089007120, -5406132469917260670, -4861719414524920420, -4297729933415765250, -3716435012622848890, -3120175321197487620, -2511351786125772730, -1892415924618135860, -1265859972696720510, -634206849826867860, 0, 634206849826867860, 1265859972696720510, 1892415924618135860, 2511351786125772730, 3120175321197487620, 3716435012622848890, 4297729933415765250, 4861719414524920420, 5406132469917260670, 5928776941089007120, 6427548324192376640, 6900438244251321140, 7345542542374026960, 7761068943454466350, 8145344273598554320, 8496821198441657010, 8814084455730089100, 9095856558280732850, 9341002947558101490, 9548536586741372340, 9717622009015553800, 9847578959142130040, 9937886619441677910, 9988201506066353790]
def legRow50 : List Int := [-9988664044200710500, -9940319694320907130, -9853540840480058820, -9728643851066920740, -9566109552428079430, -9366566189448779340, -9130785566557918930, -8859679795236130490, -8554297694299460850, -8215820708593359480, -7845558329003992640, -7444943022260685380, -7015524687068222510, -6558964656854393610, -6077029271849502390, -5571583045146500540, -5044581449074642020, -4498063349740387890, -3934143118975651270, -3355002454194373570, -2762881937795319900, -2160072368760417570, -1548905899981459020, -931747015600861409, -310983383271888761, 310983383271888761, 931747015600861409, 1548905899981459020, 2160072368760417570, 2762881937795319900, 3355002454194373570, 3934143118975651270, 4498063349740387890, 5044581449074642020, 5571583045146500540, 6077029271849502390, 6558964656854393610, 7015524687068222510, 7444943022260685380, 7845558329003992640, 8215820708593359480, 8554297694299460850, 8859679795236130490, 9130785566557918930, 9366566189448779340, 9566109552428079430, 9728643851066920740, 9853540840480058820, 9940319694320907130, 9988664044200710500]
def legRow51 : List Int := [-9989099908489034950, -9942612604367525750, -9859159917359029970, -9739033680193238670, -9582678486139081950, -9390675440029623830, -9163738623097802310, -8902712180295273030, -8608567111822923710, -8282397638230648330, -7925417120993812050, -7538953544853755260, -7124444575770366450, -6683432211753700870, -6217557046007232740, -5728552163513038360, -5218236693661858420, -4688509042860410640, -4141339832263038780, -3578764566884095100, -3002876063353319400, -2415816664477987040, -1819770269570775450, -1216954210188887670, -609611001505787247, 0, 609611001505787247, 1216954210188887670, 1819770269570775450, 2415816664477987040, 3002876063353319400, 3578764566884095100, 4141339832263038780, 4688509042860410640, 5218236693661858420, 5728552163513038360, 6217557046007232740, 6683432211753700870, 7124444575770366450, 7538953544853755260, 7925417120993812050, 8282397638230648330, 8608567111822923710, 8902712180295273030, 9163738623097802310, 9390675440029623830, 9582678486139081950, 9739033680193238670, 9859159917359029970, 9942612604367525750, 9989099908489034950]
def legRow52 : List Int := [-9989511111039502780, -9944775909292160290, -9864461956515498410, -9748838842217445030, -9598318269330865530, -9413438536413590570, -9194861289164245400, -8943368905344953220, -8659861628460675850, -8345354323267345350, -8000972834304683240, -7627949951937449600, -7227620997499831940, -6801419042271677020, -6350869776952459240, -5877586049795790700, -5383262092858274380, -4869667456980960780, -4338640677187616700, -3792082691160936690, -3231950034348078260, -2660247836050018270, -2079022641563660600, -1490355086069491810, -896352446489005655, -299141097973387660, 299141097973387660, 896352446489005655, 1490355086069491810, 2079022641563660600, 2660247836050018270, 3231950034348078260, 3792082691160936690, 4338640677187616700, 4869667456980960780, 5383262092858274380, 5877586049795790700, 6350869776952459240, 6801419042271677020, 7227620997499831940, 7627949951937449600, 8000972834304683240, 8345354323267345350, 8659861628460675850, 8943368905344953220, 9194861289164245400, 9413438536413590570, 9598318269330865530, 9748838842217445030, 9864461956515498410, 9944775909292160290, 9989511111039502780]
def legRow53 : List Int := [-9989899477763282270, -9946819193080070790, -9869470350233715220, -9758102337149845820, -9613096946231363320, -9434953534644418790, -9224286030428121280, -8981820578754266260, -8708392975582413520, -8404945765458013750, -8072524984168954780, -7712276549255323080, -7325442308075102540, -6913355756013667230, -6477437439165100690, -6019190057137693280, -5540193282770678810, -5042098316571334370, -4526622194618457910, -3995541869539529770, -3450688084957223570, -2893939064516262060, -2327214037242725940, -1752466621553257510, -1171678090719551500, -586850543002594650, 0, 586850543002594650, 1171678090719551500, 1752466621553257510, 2327214037242725940, 2893939064516262060, 3450688084957223570, 3995541869539529770, 4526622194618457910, 5042098316571334370, 5540193282770678810, 6019190057137693280, 6477437439165100690, 6913355756013667230, 7325442308075102540, 7712276549255323080, 8072524984168954780, 8404945765458013750, 8708392975582413520, 8981820578754266260, 9224286030428121280, 9434953534644418790, 9613096946231363320, 9758102337149845820, 9869470350233715220, 9946819193080070790, 9989899477763282270]
def legRow54 : List Int := [-9990266668673409840, -9948751170183388850, -9874206373973435590, -9766863288579032370, -9627076457859235830, -9455309751649958540, -9252133598666514860, -9018222862847015810, -8754354540655689390, -8461405159707729490, -8140347859135678350, -7792249153462540220, -7418265388091843160, -7019638897191729190, -6597693876319831250, -6153831983311273710, -5689527681952094300, -5206323343859330730, -4705824124813822840, -4189692632552045280, -3659643403721911820, -3117437208344682290, -2564875200699973000, -2003792936062135700, -1436054273162561540, -863545182632482153, -288167481993417777, 288167481993417777, 863545182632482153, 1436054273162561540, 2003792936062135700, 2564875200699973000, 3117437208344682290, 3659643403721911820, 4189692632552045280, 4705824124813822840, 5206323343859330730, 5689527681952094300, 6153831983311273710, 6597693876319831250, 7019638897191729190, 7418265388091843160, 7792249153462540220, 8140347859135678350, 8461405159707729490, 8754354540655689390, 9018222862847015810, 9252133598666514860, 9455309751649958540, 9627076457859235830, 9766863288579032370, 9874206373973435590, 9948751170183388850, 9990266668673409840]
def legRow55 : List Int := [-9990614195648185410, -9950579778474118750, -9878689411988891980, -9775157355039892090, -9640313285931351990, -9474588680412107420, -9278514247207916970, -9052718007440000260, -8797923224198955060, -8514946066171544710, -8204692985593209120, -7868157811276223660, -7506418563480219090, -7120633999866378390, -6712039903198263960, -6281945122499281400, -5831727380260321030, -5362828859083432970, -4876751581874740970, -4375052600371745920, -3859339007409794300, -3331262788900238850, -2792515532008065390, -2244823006478454830, -1689939636468732080, -1129642880593292670, -565727538183367763, 0, 565727538183367763, 1129642880593292670, 1689939636468732080, 2244823006478454830, 2792515532008065390, 3331262788900238850, 3859339007409794300, 4375052600371745920, 4876751581874740970, 5362828859083432970, 5831727380260321030, 6281945122499281400, 6712039903198263960, 7120633999866378390, 7506418563480219090, 7868157811276223660, 8204692985593209120, 8514946066171544710, 8797923224198955060, 9052718007440000260, 9278514247207916970, 9474588680412107420, 9640313285931351990, 9775157355039892090, 9878689411988891980, 9950579778474118750, 9990614195648185410]
def legRow56 : List Int := [-9990943438014655840, -9952312260810697470, -9882937155401615110, -9783017091402563830, -9652859019054901840, -9492864795619626360, -9303528802474963010, -9085436204206554910, -8839261083278275410, -8565764337627486350, -8265791321428816520, -7940269228938664980, -7590204227051289020, -7216678344501880840, -6820846126944704550, -6403931068070068940, -5967221827706633200, -5512068248555346190, -5039877183843817140, -4552108148784595790, -4050268809270912780, -3535910321749545210, -3010622538672206690, -2476029094343372040, -1933782386352752580, -1385558468103762420, -833051868224353744, -277970352872754371, 277970352872754371, 833051868224353744, 1385558468103762420, 1933782386352752580, 2476029094343372040, 3010622538672206690, 3535910321749545210, 4050268809270912780, 4552108148784595790, 5039877183843817140, 5512068248555346190, 5967221827706633200, 6403931068070068940, 6820846126944704550, 7216678344501880840, 7590204227051289020, 7940269228938664980, 8265791321428816520, 8565764337627486350, 8839261083278275410, 9085436204206554910, 9303528802474963010, 9492864795619626360, 9652859019054901840, 9783017091402563830, 9882937155401615110, 9952312260810697470, 9990943438014655840]
def legRow57 : List Int := [-9991255656252628510, -9953955236784303110, -9886965776502220490, -9790472267094687140, -9664760851718866790, -9510206264478767420, -9327269610671016960, -9116496785213912130, -8878516788822213290, -8614039832620469450, -8323855211504391210, -8008828945472182420, -7669901193594501950, -7308083447445233230, -6924455511995177390, -6520162282809768910, -6096410329087153650, -5654464292692367590, -5195643113911876060, -4721316095179757100, -4232898814515639510, -3731848900865944590, -3219661683953786410, -2697865731618387660, -2168018287961240360, -1631700625912642510, -1090513328087878010, -546071510016468242, 0, 546071510016468242, 1090513328087878010, 1631700625912642510, 2168018287961240360, 2697865731618387660, 3219661683953786410, 3731848900865944590, 4232898814515639510, 4721316095179757100, 5195643113911876060, 5654464292692367590, 6096410329087153650, 6520162282809768910, 6924455511995177390, 7308083447445233230, 7669901193594501950, 8008828945472182420, 8323855211504391210, 8614039832620469450, 8878516788822213290, 9116496785213912130, 9327269610671016960, 9510206264478767420, 9664760851718866790, 9790472267094687140, 9886965776502220490, 9953955236784303110, 9991255656252628510]
def legRow58 : List Int := [-9991552004073866060, -9955514765972909030, -9890790082484426360, -9797550146943503090, -9676062025029240900, -9526675575188690910, -9349821375882593490, -9146009285643525410, -8915826920220301760, -8659937940748074790, -8379080133393733160, -8074063279130881410, -7745766817496527450, -7395137310200422680, -7023185711539081130, -6630984453321252660, -6219664352630791110, -5790411351302250310, -5344463096488475860, -4883105372167184640, -4407668391868395650, -3919522963307531500, -3420076535979952610, -2910769143111091900, -2393069249661534540, -1868469518357613210, -1338482505954668570, -804636302141427293, -268470123659423558, 268470123659423558, 804636302141427293, 1338482505954668570, 1868469518357613210, 2393069249661534540, 2910769143111091900, 3420076535979952610, 3919522963307531500, 4407668391868395650, 4883105372167184640, 5344463096488475860, 5790411351302250310, 6219664352630791110, 6630984453321252660, 7023185711539081130, 7395137310200422680, 7745766817496527450, 8074063279130881410, 8379080133393733160, 8659937940748074790, 8915826920220301760, 9146009285643525410, 9349821375882593490, 9526675575188690910, 9676062025029240900, 9797550146943503090, 9890790082484426360, 9955514765972909030, 9991552004073866060]
def legRow59 : List Int := [-9991833539092946840, -9956996403832459650, -9894423651337309320, -9804275739567156880, -9686802216817815310, -9542330093769510560, -9371261903534538590, -9174074387881552810, -8951317117434720850, -8703610942928822610, -8431646258168722010, -8136181072882115710, -7818038898623609060, -7478106452786402320, -7117331186771977320, -6736718645049372270, -6337329662388500970, -5920277407040301440, -5486724278083963840, -5037878665577179790, -4574991582532666900, -4099353178104189670, -3612289141697948100, -3115157008030137000, -2609342373428117120, -2096255033920365450, -1577325055878579680, -1053998790163441440, -527734840883100040, 0, 527734840883100040, 1053998790163441440, 1577325055878579680, 2096255033920365450, 2609342373428117120, 3115157008030137000, 3612289141697948100, 4099353178104189670, 4574991582532666900, 5037878665577179790, 5486724278083963840, 5920277407040301440, 6337329662388500970, 6736718645049372270, 7117331186771977320, 7478106452786402320, 7818038898623609060, 8136181072882115710, 8431646258168722010, 8703610942928822610, 8951317117434720850, 9174074387881552810, 9371261903534538590, 9542330093769510560, 9686802216817815310, 9804275739567156880, 9894423651337309320, 9956996403832459650, 9991833539092946840]
def legRow60 : List Int := [-9992101232274360220, -9958405251188381740, -9897878952222217170, -9810672017525981860, -9697017887650527340, -9557222558399961070, -9391662761164232490, -9200784761776275530, -8985103108100459420, -8745199226468983150, -8481719847859296320, -8195375261621457590, -7886937399322640550, -7557237753065856870, -7207165133557303990, -6837663273813554370, -6449728284894770680, -6044405970485103630, -5622789007539445390, -5186014000585697470, -4735258417617071110, -4271737415830783890, -3796700565767979770, -3311428482684481940, -2817229374232616920, -2315435513760293380, -1807399648734254170, -1294491353969450030, -778093339495365694, -259597723012477986, 259597723012477986, 778093339495365694, 1294491353969450030, 1807399648734254170, 2315435513760293380, 2817229374232616920, 3311428482684481940, 3796700565767979770, 4271737415830783890, 4735258417617071110, 5186014000585697470, 5622789007539445390, 6044405970485103630, 6449728284894770680, 6837663273813554370, 7207165133557303990, 7557237753065856870, 7886937399322640550, 8195375261621457590, 8481719847859296320, 8745199226468983150, 8985103108100459420, 9200784761776275530, 9391662761164232490, 9557222558399961070, 9697017887650527340, 9810672017525981860, 9897878952222217170, 9958405251188381740, 9992101232274360220]
def legRow61 : List Int := [-9992355976313634720, -9959745998151202340, -9901167452325170510, -9816760112840370800, -9706742588331829080, -9571401519129840910, -9411089866813611480, -9226225813829552610, -9017291624740011710, -8784832372148810320, -8529454508476634460, -8251824281086599510, -7952665992823596490, -7632760111723121970, -7292941234494651100, -6934095908944911550, -6557160320950708720, -6163117851979217250, -5752996513508306190, -5327866265029252660, -4888836222622521190, -4437051765385316020, -3973691547257566090, -3499964422040668350, -3017106289630307130, -2526376871690534960, -2029056425180584990, -1526442402308153010, -1019846065622740690, -510589067079743494, 0, 510589067079743494, 1019846065622740690, 1526442402308153010, 2029056425180584990, 2526376871690534960, 3017106289630307130, 3499964422040668350, 3973691547257566090, 4437051765385316020, 4888836222622521190, 5327866265029252660, 5752996513508306190, 6163117851979217250, 6557160320950708720, 6934095908944911550, 7292941234494651100, 7632760111723121970, 7952665992823596490, 8251824281086599510, 8529454508476634460, 8784832372148810320, 9017291624740011710, 9226225813829552610, 9411089866813611480, 9571401519129840910, 9706742588331829080, 9816760112840370800, 9901167452325170510, 9959745998151202340, 9992355976313634720]
def legRow62 : List Int := [-9992598593087770300, -9961022963162671330, -9904299711892903520, -9822559490972366490, -9716007233716518060, -9584911729739270920, -9429604013923285040, -9250476356362037550, -9047981225210934660, -8822630128318973630, -8574992315120709230, -8305693336040048510, -8015413461039763710, -7704885960554193190, -7374895252831567500, -7026274922222970550, -6659905613354794470, -6276712806468851810, -5877664479530873380, -5463768663002510960, -5036070893447559560, -4595651572401133950, -4143623237171260480, -3681127750465645300, -3209333415941940040, -2729432026967263430, -2242635856041655320, -1750174592490156290, -1253292236158968090, -753243954962343328, -251292914218206147, 251292914218206147, 753243954962343328, 1253292236158968090, 1750174592490156290, 2242635856041655320, 2729432026967263430, 3209333415941940040, 3681127750465645300, 4143623237171260480, 4595651572401133950, 5036070893447559560, 5463768663002510960, 5877664479530873380, 6276712806468851810, 6659905613354794470, 7026274922222970550, 7374895252831567500, 7704885960554193190, 8015413461039763710, 8305693336040048510, 8574992315120709230, 8822630128318973630, 9047981225210934660, 9250476356362037550, 9429604013923285040, 9584911729739270920, 9716007233716518060, 9822559490972366490, 9904299711892903520, 9961022963162671330, 9992598593087770300]
def legRow63 : List Int := [-9992829840291237800, -9962240127779701090, -9907285468921894670, -9828088105937272350, -9724840346975700230, -9597794497589419270, -9447261340410098030, -9273609206218432050, -9077263027785315580, -8858703285078534260, -8618464823641237200, -8357135543195028440, -8075354957734567600, -7773812629903723360, -7453246483178474180, -7114440995848458080, -6758225281149860900, -6385471058213653850, -5997090518776252360, -5594034094862850130, -5177288132900332480, -4747872479948044000, -4306837987951116010, -3855263942122478920, -3394255419745844020, -2924940585862514400, -2448467932459533630, -1966003467915066850, -1478727863578719690, -987833564469452795, -494521871161596272, 0, 494521871161596272, 987833564469452795, 1478727863578719690, 1966003467915066850, 2448467932459533630, 2924940585862514400, 3394255419745844020, 3855263942122478920, 4306837987951116010, 4747872479948044000, 5177288132900332480, 5594034094862850130, 5997090518776252360, 6385471058213653850, 6758225281149860900, 7114440995848458080, 7453246483178474180, 7773812629903723360, 8075354957734567600, 8357135543195028440, 8618464823641237200, 8858703285078534260, 9077263027785315580, 9273609206218432050, 9447261340410098030, 9597794497589419270, 9724840346975700230, 9828088105937272350, 9907285468921894670, 9962240127779701090, 9992829840291237800]
def legRow64 : List Int := [-9993050417357721390, -9963401167719552790, -9910133714767443210, -9833362538846259570, -9733268277899109640, -9610087996520537190, -9464113748584028160, -9295691721319395760, -9105221370785028060, -8893154459951141060, -8659993981540928200, -8406292962525803630, -8132653151227975600, -7839723589433414080, -7528199072605318970, -7198818501716108270, -6852363130542332430, -6489654712546573400, -6111553551723932500, -5718956462026340340, -5312794640198945460, -4894031457070529580, -4463660172534640880, -4022701579639916040, -3572201583376681160, -3113228719902109560, -2646871622087674160, -2174236437400070840, -1696444204239928180, -1214628192961205540, -729931217877990395, -243502926634244325, 243502926634244325, 729931217877990395, 1214628192961205540, 1696444204239928180, 2174236437400070840, 2646871622087674160, 3113228719902109560, 3572201583376681160, 4022701579639916040, 4463660172534640880, 4894031457070529580, 5312794640198945460, 5718956462026340340, 6111553551723932500, 6489654712546573400, 6852363130542332430, 7198818501716108270, 7528199072605318970, 7839723589433414080, 8132653151227975600, 8406292962525803630, 8659993981540928200, 8893154459951141060, 9105221370785028060, 9295691721319395760, 9464113748584028160, 9610087996520537190, 9733268277899109640, 9833362538846259570, 9910133714767443210, 9963401167719552790, 9993050417357721390]
def legRow65 : List Int := [-9993260970754128770, -9964509480618491630, -9912852761768016690, -9838398121870349410, -9741315398335511690, -9621827547180552380, -9480209281684075060, -9316786282287493380, -9131934405428462620, -8926078805047389310, -8699692949264070360, -8453297528999302840, -8187459259226514530, -7902789574921218430, -7599943224419997870, -7279616763294246790, -6942546952139916340, -6589509061936251330, -6221315090854002420, -5838811896604873130, -5442879248622271390, -5034427804550068820, -4614397015691450580, -4183752966234090090, -3743486151220660120, -3294609198374864080, -2838154539022487310, -2375172033464168070, -1906726556261427700, -1433895546989751710, -957766532091975057, -479434623531718575, 0, 479434623531718575, 957766532091975057, 1433895546989751710, 1906726556261427700, 2375172033464168070, 2838154539022487310, 3294609198374864080, 3743486151220660120, 4183752966234090090, 4614397015691450580, 5034427804550068820, 5442879248622271390, 5838811896604873130, 6221315090854002420, 6589509061936251330, 6942546952139916340, 7279616763294246790, 7599943224419997870, 7902789574921218430, 8187459259226514530, 8453297528999302840, 8699692949264070360, 8926078805047389310, 9131934405428462620, 9316786282287493380, 9480209281684075060, 9621827547180552380, 9741315398335511690, 9838398121870349410, 9912852761768016690, 9964509480618491630, 9993260970754128770]
def legRow66 : List Int := [-9993462098721778820, -9965568210895526910, -9915450303833757460, -9843209049351401330, -9749004277462859520, -9633045868592573710, -9495592462062353390, -9336950725447924940, -9157474629452070160, -8957564644465639380, -8737666841669447300, -8498271895360162190, -8239913986955876110, -7963169612458245710, -7668656295753196260, -7357031210495128000, -7028989713588741860, -6685263793509675930, -6326620436909631690, -5953859917141384580, -5567814008517230640, -5169344130282315140, -4759339424442368430, -4338714771733706680, -3908408750161829500, -3469381540663375490, -3022612784564361000, -2569099397615302230, -2109853345480789930, -1645899385647146070, -1178272780786759970, -708016988681415913, -236181333859245705, 236181333859245705, 708016988681415913, 1178272780786759970, 1645899385647146070, 2109853345480789930, 2569099397615302230, 3022612784564361000, 3469381540663375490, 3908408750161829500, 4338714771733706680, 4759339424442368430, 5169344130282315140, 5567814008517230640, 5953859917141384580, 6326620436909631690, 6685263793509675930, 7028989713588741860, 7357031210495128000, 7668656295753196260, 7963169612458245710, 8239913986955876110, 8498271895360162190, 8737666841669447300, 8957564644465639380, 9157474629452070160, 9336950725447924940, 9495592462062353390, 9633045868592573710, 9749004277462859520, 9843209049351401330, 9915450303833757460, 9965568210895526910, 9993462098721778820]
def legRow67 : List Int := [-9993654355529767980, -9966580272061137350, -9917933470823096090, -9847808477559511130, -9756355839229080520, -9643773304277126120, -9510304595401453730, -9356238732707508770, -9181909368127385810, -8987694049613203760, -8774013398316587200, -8541330195370506510, -8290148378533011980, -8021011950216944340, -7734503798999803270, -7431244437043662070, -7111890656100403280, -6777134104982808290, -6427699791566153540, -6064344512555573860, -5687855214414710210, -5299047289002360160, -4898762807606466260, -4487868697198908840, -4067254862860139160, -3637832260439541710, -3200530923625363310, -2756297949696895880, -2306095448321157380, -1850898457836401690, -1391692833535237140, -929473112520798766, -465240359760172196, 0, 465240359760172196, 929473112520798766, 1391692833535237140, 1850898457836401690, 2306095448321157380, 2756297949696895880, 3200530923625363310, 3637832260439541710, 4067254862860139160, 4487868697198908840, 4898762807606466260, 5299047289002360160, 5687855214414710210, 6064344512555573860, 6427699791566153540, 6777134104982808290, 7111890656100403280, 7431244437043662070, 7734503798999803270, 8021011950216944340, 8290148378533011980, 8541330195370506510, 8774013398316587200, 8987694049613203760, 9181909368127385810, 9356238732707508770, 9510304595401453730, 9643773304277126120, 9756355839229080520, 9847808477559511130, 9917933470823096090, 9966580272061137350, 9993654355529767980]
def legRow68 : List Int := [-9993838255297043470, -9967548366766642920, -9920308877424485750, -9852208614402446390, -9763389504003569570, -9654038025821998030, -9524384044796020490, -9374700183128008870, -9205301208479181660, -9016543359201078300, -8808823590174559180, -8582578735826598460, -8338284590416709460, -8076454906897086650, -7797640316188976590, -7502427169029165200, -7191436302764729930, -6865321735660129450, -6524769291446769640, -6170495156998834230, -5803244376163507400, -5423789282910033860, -5032927877090848730, -4631482146229390390, -4220296336863135790, -3800235179076744770, -3372182067958807630, -2937037205806387400, -2495715708984167350, -2049145683419392960, -1598266272779789610, -1144025683439106840, -687379190383771522, -229287128254223497, 229287128254223497, 687379190383771522, 1144025683439106840, 1598266272779789610, 2049145683419392960, 2495715708984167350, 2937037205806387400, 3372182067958807630, 3800235179076744770, 4220296336863135790, 4631482146229390390, 5032927877090848730, 5423789282910033860, 5803244376163507400, 6170495156998834230, 6524769291446769640, 6865321735660129450, 7191436302764729930, 7502427169029165200, 7797640316188976590, 8076454906897086650, 8338284590416709460, 8582578735826598460, 8808823590174559180, 9016543359201078300, 9205301208479181660, 9374700183128008870, 9524384044796020490, 9654038025821998030, 9763389504003569570, 9852208614402446390, 9920308877424485750, 9967548366766642920, 9993838255297043470]
def legRow69 : List Int := [-9994014275432447880, -9968475004851951000, -9922582667168531190, -9856420800226375930, -9770123316220942630, -9663866216428605670, -9537866478051818980, -9392381470416084730, -9227708391804449970, -9044183649858271400, -8842182169472524370, -8622116624727440840, -8384436594805042130, -8129627645002956140, -7858210334467597600, -7570739152558378520, -7267801385960080890, -6950015918829284610, -6618031968410782440, -6272527758698494020, -5914209134845558260, -5543808121151320150, -5162081425569337090, -4769808893790457100, -4367791916058444210, -3956851789972444470, -3537828042620663180, -3111576715472811870, -2678968615535034290, -2240887536339990130, -1798228452406431640, -1351895690856829920, -902801083928287426, -451862106151017235, 0, 451862106151017235, 902801083928287426, 1351895690856829920, 1798228452406431640, 2240887536339990130, 2678968615535034290, 3111576715472811870, 3537828042620663180, 3956851789972444470, 4367791916058444210, 4769808893790457100, 5162081425569337090, 5543808121151320150, 5914209134845558260, 6272527758698494020, 6618031968410782440, 6950015918829284610, 7267801385960080890, 7570739152558378520, 7858210334467597600, 8129627645002956140, 8384436594805042130, 8622116624727440840, 8842182169472524370, 9044183649858271400, 9227708391804449970, 9392381470416084730, 9537866478051818980, 9663866216428605670, 9770123316220942630, 9856420800226375930, 9922582667168531190, 9968475004851951000, 9994014275432447880]
def legRow70 : List Int := [-9994182859735758420, -9969362519616801570, -9924760552116899810, -9860455580703986600, -9776574059575924000, -9673282236649864380, -9550785091142928430, -9409325790038153560, -9249185168979344400, -9070681162609228490, -8874168168633481710, -8660036342138586290, -8428710819989802420, -8180650876254411890, -7916349010078927580, -7636329967718995690, -7341149700609426410, -7031394261515285970, -6707678640940774060, -6370645546097780960, -6020964124853554870, -5659328637188082860, -5286457076797111270, -4903089745576365890, -4509987783816478660, -4107931659026305890, -3697719616384618960, -3280166093896432580, -2856100105400378620, -2426363594637406460, -1991809763648576640, -1553301378820702470, -1111709057942986940, -667909541675513240, -222783952861403097, 222783952861403097, 667909541675513240, 1111709057942986940, 1553301378820702470, 1991809763648576640, 2426363594637406460, 2856100105400378620, 3280166093896432580, 3697719616384618960, 4107931659026305890, 4509987783816478660, 4903089745576365890, 5286457076797111270, 5659328637188082860, 6020964124853554870, 6370645546097780960, 6707678640940774060, 7031394261515285970, 7341149700609426410, 7636329967718995690, 7916349010078927580, 8180650876254411890, 8428710819989802420, 8660036342138586290, 8874168168633481710, 9070681162609228490, 9249185168979344400, 9409325790038153560, 9550785091142928430, 9673282236649864380, 9776574059575924000, 9860455580703986600, 9924760552116899810, 9969362519616801570, 9994182859735758420]
def legRow71 : List Int := [-9994344421197369280, -9970213082512551300, -9926847848706415700, -9864322772682613680, -9782757361136017930, -9682308774263253460, -9563170810410528750, -9425573399222711590, -9269782122508714110, -9096097689845343590, -8904855353552065120, -8696424259563074110, -8471206733918739690, -8229637505675527520, -7972182867493179610, -7699339775410366470, -7411634889493768480, -7109623557185443710, -6793888741296445760, -6465039894707876430, -6123711783946823360, -5770563263905198100, -5406276006064873560, -5031553182682900710, -4647118109475978230, -4253712849423695560, -3852096780385272960, -3443045129294470250, -3027347475761913760, -2605806227973186620, -2179235073824533360, -1748457410285848630, -1314304754022660870, -877615136345006824, -439231485581353293, 0, 439231485581353293, 877615136345006824, 1314304754022660870, 1748457410285848630, 2179235073824533360, 2605806227973186620, 3027347475761913760, 3443045129294470250, 3852096780385272960, 4253712849423695560, 4647118109475978230, 5031553182682900710, 5406276006064873560, 5770563263905198100, 6123711783946823360, 6465039894707876430, 6793888741296445760, 7109623557185443710, 7411634889493768480, 7699339775410366470, 7972182867493179610, 8229637505675527520, 8471206733918739690, 8696424259563074110, 8904855353552065120, 9096097689845343590, 9269782122508714110, 9425573399222711590, 9563170810410528750, 9682308774263253460, 9782757361136017930, 9864322772682613680, 9926847848706415700, 9970213082512551300, 9994344421197369280]
def legRow72 : List Int := [-9994499344529626420, -9971028716427290780, -9928849510168019080, -9868031523758304660, -9788687785572337720, -9690966979987804260, -9575052475776982260, -9441161852725379650, -9289546458809180110, -9120490926886714700, -8934312635880912560, -8731361112987789050, -8512017376544378510, -8276693220227543150, -8025830439692918520, -7759900002999825620, -7479401166328323910, -7184860536622349610, -6876831082904678080, -6555891098112010560, -6222643113394681910, -5877712766916555990, -5521747629277143970, -5155415987760035240, -4779405591689404570, -4394422361249607320, -4001189062191616130, -3600443948914192380, -3192939378467121710, -2779440398078476070, -2360723308857599250, -1937574208370260600, -1510787514822100300, -1081164475621028150, -649511663118571141, -216639460354240447, 216639460354240447, 649511663118571141, 1081164475621028150, 1510787514822100300, 1937574208370260600, 2360723308857599250, 2779440398078476070, 3192939378467121710, 3600443948914192380, 4001189062191616130, 4394422361249607320, 4779405591689404570, 5155415987760035240, 5521747629277143970, 5877712766916555990, 6222643113394681910, 6555891098112010560, 6876831082904678080, 7184860536622349610, 7479401166328323910, 7759900002999825620, 8025830439692918520, 8276693220227543150, 8512017376544378510, 8731361112987789050, 8934312635880912560, 9120490926886714700, 9289546458809180110, 9441161852725379650, 9575052475776982260, 9690966979987804260, 9788687785572337720, 9868031523758304660, 9928849510168019080, 9971028716427290780, 9994499344529626420]
def legRow73 : List Int := [-9994647988458811710, -9971811307716112670, -9930770155889451520, -9871590366249321150, -9794378920564836250, -9699276590549859130, -9586457006979742200, -9456126216894835720, -9308522273812245600, -9143914791762564150, -8962604448466912210, -8764922434206515000, -8551229845942994840, -8321917027249097440, -8077402855027359250, -7818133974216447510, -7544583981833234800, -7257252561815598180, -6956664572232627170, -6643369086521963390, -6317938390501184570, -5980966936982709760, -5633070259900165130, -5274883849928709370, -4907061993652519880, -4530276578399453950, -4145215864925757640, -3752583230192515030, -3353095882530224560, -2947483551538367680, -2536487155113013940, -2120857446037305270, -1701353640607007580, -1278742031796143020, -853794589495963010, -427287550384139912, 0, 427287550384139912, 853794589495963010, 1278742031796143020, 1701353640607007580, 2120857446037305270, 2536487155113013940, 2947483551538367680, 3353095882530224560, 3752583230192515030, 4145215864925757640, 4530276578399453950, 4907061993652519880, 5274883849928709370, 5633070259900165130, 5980966936982709760, 6317938390501184570, 6643369086521963390, 6956664572232627170, 7257252561815598180, 7544583981833234800, 7818133974216447510, 8077402855027359250, 8321917027249097440, 8551229845942994840, 8764922434206515000, 8962604448466912210, 9143914791762564150, 9308522273812245600, 9456126216894835720, 9586457006979742200, 9699276590549859130, 9794378920564836250, 9871590366249321150, 9930770155889451520, 9971811307716112670, 9994647988458811710]
def legRow74 : List Int := [-9994790687803295240, -9972562617110163910, -9932614098046449730, -9875007266162385600, -9799843454313003360, -9707256040425187270, -9597409554595289130, -9470499264283850080, -9326750794620545660, -9166419716429064610, -8989791087618957960, -8797178944520888090, -8588925742659835770, -8365401747428157390, -8127004375519743740, -7874157488195755180, -7607310637589944760, -7326938267368802780, -7033538869154418590, -6727634096202476030, -6409767835906923890, -6080505242777798260, -5740431733609941530, -5390151946628170830, -5030288666458851660, -4661481716838811830, -4284386823030032790, -3899674445962507510, -3508028590177980480, -3110145587693906370, -2706732859949804060, -2298507660037170310, -1886195797449185780, -1470530347617534120, -1052250348530709720, -632099486751162919, -210824775167483044, 210824775167483044, 632099486751162919, 1052250348530709720, 1470530347617534120, 1886195797449185780, 2298507660037170310, 2706732859949804060, 3110145587693906370, 3508028590177980480, 3899674445962507510, 4284386823030032790, 4661481716838811830, 5030288666458851660, 5390151946628170830, 5740431733609941530, 6080505242777798260, 6409767835906923890, 6727634096202476030, 7033538869154418590, 7326938267368802780, 7607310637589944760, 7874157488195755180, 8127004375519743740, 8365401747428157390, 8588925742659835770, 8797178944520888090, 8989791087618957960, 9166419716429064610, 9326750794620545660, 9470499264283850080, 9597409554595289130, 9707256040425187270, 9799843454313003360, 9875007266162385600, 9932614098046449730, 9972562617110163910, 9994790687803295240]
def legRow75 : List Int := [-9994927755360354560, -9973284289622318030, -9934385365788927040, -9878289667675245200, -9805093245974166060, -9714922563430638230, -9607933637418923140, -9484311650792873780, -9344270599641071570, -9188052912283939910, -9015929025484463340, -8828196914478955420, -8625181576268834250, -8407234466549580500, -8174732891035413150, -7928079352135635100, -7667700852066419250, -7394048153580325260, -7107594999580411270, -6808837292962695980, -6498292238102622330, -6176497445469259640, -5844010000915778800, -5501405501256455510, -5149277057799166400, -4788234269558031570, -4418902167923482670, -4041920134616536130, -3657940794800359250, -3267628887265263020, -2871660113642972470, -2470719968642347570, -2065502553331596070, -1656709373521378180, -1245048125329002620, -831231470026109917, -415975800290794560, 0, 415975800290794560, 831231470026109917, 1245048125329002620, 1656709373521378180, 2065502553331596070, 2470719968642347570, 2871660113642972470, 3267628887265263020, 3657940794800359250, 4041920134616536130, 4418902167923482670, 4788234269558031570, 5149277057799166400, 5501405501256455510, 5844010000915778800, 6176497445469259640, 6498292238102622330, 6808837292962695980, 7107594999580411270, 7394048153580325260, 7667700852066419250, 7928079352135635100, 8174732891035413150, 8407234466549580500, 8625181576268834250, 8828196914478955420, 9015929025484463340, 9188052912283939910, 9344270599641071570, 9484311650792873780, 9607933637418923140, 9714922563430638230, 9805093245974166060, 9878289667675245200, 9934385365788927040, 9973284289622318030, 9994927755360354560]
def legRow76 : List Int := [-9995059483621530780, -9973977863553554370, -9936087727235269850, -9881444533598374380, -9810139389756558950, -9722292285203769040, -9618051267587678270, -9497592077108963850, -9361117819348107960, -9208858612521501190, -9041071195455668290, -8858038492920827870, -8660069137719819550, -8447496949833423940, -8220680373289746130, -7980001871612001700, -7725867282818097610, -7458705135036104430, -7178965923877036390, -6887121352776405970, -6583663537581426300, -6269104176722665590, -5943973688367929180, -5608820316012374790, -5264209204012425910, -4910721444621938650, -4548953098137263390, -4179514187803272990, -3803027671175044430, -3420128389669620240, -3031461998079077780, -2637683875849942760, -2239458021964741340, -1837455935289144770, -1432355482272675210, -1024839753912270180, -615595913906112084, -205314039939986355, 205314039939986355, 615595913906112084, 1024839753912270180, 1432355482272675210, 1837455935289144770, 2239458021964741340, 2637683875849942760, 3031461998079077780, 3420128389669620240, 3803027671175044430, 4179514187803272990, 4548953098137263390, 4910721444621938650, 5264209204012425910, 5608820316012374790, 5943973688367929180, 6269104176722665590, 6583663537581426300, 6887121352776405970, 7178965923877036390, 7458705135036104430, 7725867282818097610, 7980001871612001700, 8220680373289746130, 8447496949833423940, 8660069137719819550, 8858038492920827870, 9041071195455668290, 9208858612521501190, 9361117819348107960, 9497592077108963850, 9618051267587678270, 9722292285203769040, 9810139389756558950, 9881444533598374380, 9936087727235269850, 9973977863553554370, 9995059483621530780]
def legRow77 : List Int := [-9995186146334100100, -9974644778692141000, -9937724709498782480, -9884478382225613070, -9814992273311384620, -9729380307491083900, -9627783064677343120, -9510367436005918720, -9377326319590610440, -9228878293594022000, -9065267253212578180, -8886762008255640700, -8693655840677340600, -8486266022296240360, -8264933293290021190, -8030021302229252270, -7781916008525431420, -7521025048252159410, -7247777064369117290, -6962621002442422250, -6666025373014514940, -6358477481833123670, -6040482629202573850, -5712563279771982510, -5375258204123777390, -5029121593572515180, -4674722149628117950, -4312642149619356820, -3943476490012635600, -3567831708997810710, -3186324989946873090, -2799583147382761220, -2408241597124321980, -2012943312299443570, -1614337766941609320, -1213079868905525870, -809828883855031312, -405247352091159259, 0, 405247352091159259, 809828883855031312, 1213079868905525870, 1614337766941609320, 2012943312299443570, 2408241597124321980, 2799583147382761220, 3186324989946873090, 3567831708997810710, 3943476490012635600, 4312642149619356820, 4674722149628117950, 5029121593572515180, 5375258204123777390, 5712563279771982510, 6040482629202573850, 6358477481833123670, 6666025373014514940, 6962621002442422250, 7247777064369117290, 7521025048252159410, 7781916008525431420, 8030021302229252270, 8264933293290021190, 8486266022296240360, 8693655840677340600, 8886762008255640700, 9065267253212578180, 9228878293594022000, 9377326319590610440, 9510367436005918720, 9627783064677343120, 9729380307491083900, 9814992273311384620, 9884478382225613070, 9937724709498782480, 9974644778692141000, 9995186146334100100]
def legRow78 : List Int := [-9995307999924237600, -9975286383787243610, -9939299616944887430, -9887397320937174340, -9819661630995504980, -9736200785062364420, -9637148359867559020, -9522662946898633640, -9392927869149465930, -9248150877800637760, -9088563815731882580, -8914422244588185790, -8726005034727245050, -8523613918225577030, -8307573005459112730, -8078228265942016870, -7835946974211427870, -7581117121623153150, -7314146794988303980, -7035463523039237720, -6745513591767507900, -6444761329727928550, -6133688364451847770, -5812792851159517550, -5482588675006126090, -5143604628138640580, -4796383562881072400, -4441481522404086030, -4079466850270983920, -3710919280285962740, -3336429008102105610, -2956595746075801450, -2572027762881124430, -2183340909422119790, -1791157632602891520, -1396105978534835950, -998818586777284105, -599931677222176936, -200084031245179230, 200084031245179230, 599931677222176936, 998818586777284105, 1396105978534835950, 1791157632602891520, 2183340909422119790, 2572027762881124430, 2956595746075801450, 3336429008102105610, 3710919280285962740, 4079466850270983920, 4441481522404086030, 4796383562881072400, 5143604628138640580, 5482588675006126090, 5812792851159517550, 6133688364451847770, 6444761329727928550, 6745513591767507900, 7035463523039237720, 7314146794988303980, 7581117121623153150, 7835946974211427870, 8078228265942016870, 8307573005459112730, 8523613918225577030, 8726005034727245050, 8914422244588185790, 9088563815731882580, 9248150877800637760, 9392927869149465930, 9522662946898633640, 9637148359867559020, 9736200785062364420, 9819661630995504980, 9887397320937174340, 9939299616944887430, 9975286383787243610, 9995307999924237600]
def legRow79 : List Int := [-9995425284795698440, -9975903943369414350, -9940815547855426220, -9890207076877843380, -9824156592512789300, -9742766995978071180, -9646165291148647860, -9534502278892691360, -9407952293065772500, -9266712918809038740, -9111004680345808000, -8941070695042351010, -8757176293035294770, -8559608602552193760, -8348676101377778820, -8124708135078067740, -7888054402691977660, -7639084410671701080, -7378186895912782100, -7105769218768241640, -6822256726990710590, -6528092091593439980, -6223734615665772390, -5909659517221399830, -5586357187198589070, -5254332423770545480, -4914103644161198210, -4566202075196891310, -4211170923857719290, -3849564529123508840, -3481947496438678670, -3108893816147364370, -2730985967275235440, -2348814008057319160, -1962974654631846420, -1574070349338616050, -1182708320076608810, -789499632189544055, -395058234359740641, 0, 395058234359740641, 789499632189544055, 1182708320076608810, 1574070349338616050, 1962974654631846420, 2348814008057319160, 2730985967275235440, 3108893816147364370, 3481947496438678670, 3849564529123508840, 4211170923857719290, 4566202075196891310, 4914103644161198210, 5254332423770545480, 5586357187198589070, 5909659517221399830, 6223734615665772390, 6528092091593439980, 6822256726990710590, 7105769218768241640, 7378186895912782100, 7639084410671701080, 7888054402691977660, 8124708135078067740, 8348676101377778820, 8559608602552193760, 8757176293035294770, 8941070695042351010, 9111004680345808000, 9266712918809038740, 9407952293065772500, 9534502278892691360, 9646165291148647860, 9742766995978071180, 9824156592512789300, 9890207076877843380, 9940815547855426220, 9975903943369414350, 9995425284795698440]
def legRow80 : List Int := [-9995538226516306300, -9976498643982376890, -9942275409656882780, -9892913024997555310, -9828485727386290700, -9749091405857277930, -9654850890437992510, -9545907663436349060, -9422427613098726750, -9284598771724457960, -9132631025717576540, -8966755794387706830, -8787225676782138290, -8594314066631110970, -8388314735802552760, -8169541386814634700, -7938327175046054500, -7695024201350413740, -7440002975835972720, -7173651853620998800, -6896376443420276010, -6608598989861198020, -6310757730468719660, -6003306228297517430, -5686712681227097850, -5361459208971319320, -5028041118887849880, -4686966151705444770, -4338753708317560930, -3983934058819692270, -3623047534994873160, -3256643707477019150, -2885280548845118530, -2509523583922721200, -2129945028576661330, -1747122918326468130, -1361640228091438870, -974083984415845991, -585044371524206686, -195113832567939977, 195113832567939977, 585044371524206686, 974083984415845991, 1361640228091438870, 1747122918326468130, 2129945028576661330, 2509523583922721200, 2885280548845118530, 3256643707477019150, 3623047534994873160, 3983934058819692270, 4338753708317560930, 4686966151705444770, 5028041118887849880, 5361459208971319320, 5686712681227097850, 6003306228297517430, 6310757730468719660, 6608598989861198020, 6896376443420276010, 7173651853620998800, 7440002975835972720, 7695024201350413740, 7938327175046054500, 8169541386814634700, 8388314735802552760, 8594314066631110970, 8787225676782138290, 8966755794387706830, 9132631025717576540, 9284598771724457960, 9422427613098726750, 9545907663436349060, 9654850890437992510, 9749091405857277930, 9828485727386290700, 9892913024997555310, 9942275409656882780, 9976498643982376890, 9995538226516306300]
def legRow81 : List Int := [-9995647036903190350, -9977071599883464640, -9943681932852198650, -9895520213710219990, -9832657085664302270, -9755185726723612970, -9663221163380561110, -9556899997564025150, -9436380176528138210, -9301840749151675030, -9153481596407507170, -8991523132861565310, -8816205978467201460, -8627790600697918950, -8426556927364670460, -8212803930609102230, -7986849182650282820, -7749028383924234310, -7499694864306206720, -7239219058150526140, -6967987953924356100, -6686404519250901470, -6394887102214945550, -6093868809819365460, -5783796864515513690, -5465131939763112730, -5138347475606582150, -4803928975284482700, -4462373283916990570, -4114187850342975420, -3759889973203312880, -3400006032390483400, -3035070707006261650, -2665626180989353390, -2292221337593161050, -1915410943910428560, -1535754826656306370, -1153817040434367110, -770165029721271773, -385368785815119838, 0, 385368785815119838, 770165029721271773, 1153817040434367110, 1535754826656306370, 1915410943910428560, 2292221337593161050, 2665626180989353390, 3035070707006261650, 3400006032390483400, 3759889973203312880, 4114187850342975420, 4462373283916990570, 4803928975284482700, 5138347475606582150, 5465131939763112730, 5783796864515513690, 6093868809819365460, 6394887102214945550, 6686404519250901470, 6967987953924356100, 7239219058150526140, 7499694864306206720, 7749028383924234310, 7986849182650282820, 8212803930609102230, 8426556927364670460, 8627790600697918950, 8816205978467201460, 8991523132861565310, 9153481596407507170, 9301840749151675030, 9436380176528138210, 9556899997564025150, 9663221163380561110, 9755185726723612970, 9832657085664302270, 9895520213710219990, 9943681932852198650, 9977071599883464640, 9995647036903190350]
def legRow82 : List Int := [-9995751915016526490, -9977623858263858630, -9945037683780756290, -9898033388399089500, -9836678235220076030, -9761060970944988290, -9671291162525906960, -9567498938616109030, -9449834774389604890, -9318469264546228880, -9173592872532801070, -9015415652888412580, -8844166945967247080, -8660095045047654490, -8463466836129137020, -8254567410857676560, -8033699653101082990, -7801183799753582450, -7557356976395604170, -7302572708475962450, -7037200408721666790, -6761624841516470250, -6476245565023465990, -6181476351859786820, -5877744589162848670, -5565490658917638120, -5245167299443277680, -4917238948964493220, -4582181072219631980, -4240479471081507220, -3892629580190548160, -3539135748621479360, -3180510508625015050, -2817273832504801020, -2449952378707045380, -2079078728215923510, -1705190612361901600, -1328830133162575260, -950542977326448740, -570877625059269319, -190384554820068138, 190384554820068138, 570877625059269319, 950542977326448740, 1328830133162575260, 1705190612361901600, 2079078728215923510, 2449952378707045380, 2817273832504801020, 3180510508625015050, 3539135748621479360, 3892629580190548160, 4240479471081507220, 4582181072219631980, 4917238948964493220, 5245167299443277680, 5565490658917638120, 5877744589162848670, 6181476351859786820, 6476245565023465990, 6761624841516470250, 7037200408721666790, 7302572708475962450, 7557356976395604170, 7801183799753582450, 8033699653101082990, 8254567410857676560, 8463466836129137020, 8660095045047654490, 8844166945967247080, 9015415652888412580, 9173592872532801070, 9318469264546228880, 9449834774389604890, 9567498938616109030, 9671291162525906960, 9761060970944988290, 9836678235220076030, 9898033388399089500, 9945037683780756290, 9977623858263858630, 9995751915016526490]
def legRow83 : List Int := [-9995853048070493440, -9978156404034299620, -9946345076317803230, -9900457012972652230, -9840556295966814720, -9766727500728429340, -9679075054501287300, -9577722991227671060, -9462814750117908740, -9334512964018386190, -9192999225872079440, -9038473830228995080, -8871155489050633410, -8691281021787169840, -8499105019989337970, -8294899486849842760, -8078953452145896320, -7851572563108158400, -7613078651784587410, -7363809279505642670, -7104117259092174650, -6834370155480217800, -6554949765468237180, -6266251577322393580, -5968684211004183120, -5662668839812408030, -5348638594257853110, -5027037949014261320, -4698322093813203290, -4362956289173192760, -4021415207874887360, -3674182263114403670, -3321748924285641820, -2964614021360031910, -2603283038848259180, -2238267400343273990, -1870083744657226810, -1499253194576868180, -1126300619272403080, -751753891403772823, -376143139975843827, 0, 376143139975843827, 751753891403772823, 1126300619272403080, 1499253194576868180, 1870083744657226810, 2238267400343273990, 2603283038848259180, 2964614021360031910, 3321748924285641820, 3674182263114403670, 4021415207874887360, 4362956289173192760, 4698322093813203290, 5027037949014261320, 5348638594257853110, 5662668839812408030, 5968684211004183120, 6266251577322393580, 6554949765468237180, 6834370155480217800, 7104117259092174650, 7363809279505642670, 7613078651784587410, 7851572563108158400, 8078953452145896320, 8294899486849842760, 8499105019989337970, 8691281021787169840, 8871155489050633410, 9038473830228995080, 9192999225872079440, 9334512964018386190, 9462814750117908740, 9577722991227671060, 9679075054501287300, 9766727500728429340, 9840556295966814720, 9900457012972652230, 9946345076317803230, 9978156404034299620, 9995853048070493440]
def legRow84 : List Int := [-9995950612269232420, -9978670164217119620, -9947606382612846410, -9902795289653566870, -9844297971275816510, -9772195073583157830, -9686586181736218980, -9587589587296934720, -9475342099474431230, -9349998847635588180, -9211733063630512180, -9060735840940084210, -8897215869883154610, -8721399148835790320, -8533528671689186620, -8333864091900214290, -8122681363561230390, -7900272359965968680, -7666944470188362830, -7423020174226099210, -7168836597292748240, -6904745043872484710, -6631110512180146340, -6348311189696914840, -6056737930478333900, -5756793714956741560, -5448893092984496890, -5133461610887614000, -4810935223321561760, -4481759690742023310, -4146389963323312190, -3805289552175887010, -3458929888731970590, -3107789673184639730, -2752354212880885610, -2393114751583033660, -2030567790525534780, -1665214402205481590, -1297559537855247420, -928111329554378827, -557380387945282170, -185879096523321333, 185879096523321333, 557380387945282170, 928111329554378827, 1297559537855247420, 1665214402205481590, 2030567790525534780, 2393114751583033660, 2752354212880885610, 3107789673184639730, 3458929888731970590, 3805289552175887010, 4146389963323312190, 4481759690742023310, 4810935223321561760, 5133461610887614000, 5448893092984496890, 5756793714956741560, 6056737930478333900, 6348311189696914840, 6631110512180146340, 6904745043872484710, 7168836597292748240, 7423020174226099210, 7666944470188362830, 7900272359965968680, 8122681363561230390, 8333864091900214290, 8533528671689186620, 8721399148835790320, 8897215869883154610, 9060735840940084210, 9211733063630512180, 9349998847635588180, 9475342099474431230, 9587589587296934720, 9686586181736218980, 9772195073583157830, 9844297971275816510, 9902795289653566870, 9947606382612846410, 9978670164217119620, 9995950612269232420]
def legRow85 : List Int := [-9996044773574784540, -9979166011981169330, -9948823742956162780, -9905052177164159640, -9847909576855804970, -9777472884122433920, -9693837119236783280, -9597115159571883620, -9487437562545789530, -9364952381164307000, -9229824960960900460, -9082237715390918850, -8922389878913559020, -8750497237690970880, -8566791838099561890, -8371521673370826500, -8164950348747916150, -7947356725591165050, -7719034544902930790, -7480292030774340740, -7231451474286010210, -6972848798422495480, -6704833104586626610, -6427766201325147150, -6142022115901369930, -5847986589373880860, -5546056555862694330, -5236639606705678750, -4920153440228513110, -4597025297870887210, -4267691387430097020, -3932596294200591910, -3592192380804380490, -3246939176522475570, -2897302756951737040, -2543755114824535230, -2186773522840590160, -1826839889371126740, -1464440107905109890, -1100063401115772370, -734201660432911256, -367348782012496635, 0, 367348782012496635, 734201660432911256, 1100063401115772370, 1464440107905109890, 1826839889371126740, 2186773522840590160, 2543755114824535230, 2897302756951737040, 3246939176522475570, 3592192380804380490, 3932596294200591910, 4267691387430097020, 4597025297870887210, 4920153440228513110, 5236639606705678750, 5546056555862694330, 5847986589373880860, 6142022115901369930, 6427766201325147150, 6704833104586626610, 6972848798422495480, 7231451474286010210, 7480292030774340740, 7719034544902930790, 7947356725591165050, 8164950348747916150, 8371521673370826500, 8566791838099561890, 8750497237690970880, 8922389878913559020, 9082237715390918850, 9229824960960900460, 9364952381164307000, 9487437562545789530, 9597115159571883620, 9693837119236783280, 9777472884122433920, 9847909576855804970, 9905052177164159640, 9948823742956162780, 9979166011981169330, 9996044773574784540]
def legRow86 : List Int := [-9996135688413258570, -9979644770352439450, -9949999174853378960, -9907231407455187050, -9851397067325024140, -9782569602536847170, -9700839726857401310, -9606315209428984490, -9499120708522102560, -9379397599098926140, -9247303783228619500, -9103013480461658300, -8946716997394463340, -8778620476333659370, -8598945623226849550, -8407929415144330520, -8205823787661602220, -7992895302536617880, -7769424796110233710, -7535707008888089040, -7292050196789283230, -7038775724572676950, -6776217641975885110, -6504722243125262330, -6224647609797508120, -5936363139134980340, -5640249056437413290, -5336695913672486830, -5026104074366572740, -4708883185554977840, -4385451637488090940, -4056236011806003960, -3721670518909396100, -3382196425268726660, -3038261471427057350, -2690319281464103050, -2338828764700374640, -1984253510430514030, -1627061176484117140, -1267722872420482530, -906712538170801670, -544506318947312060, -181581937243858159, 181581937243858159, 544506318947312060, 906712538170801670, 1267722872420482530, 1627061176484117140, 1984253510430514030, 2338828764700374640, 2690319281464103050, 3038261471427057350, 3382196425268726660, 3721670518909396100, 4056236011806003960, 4385451637488090940, 4708883185554977840, 5026104074366572740, 5336695913672486830, 5640249056437413290, 5936363139134980340, 6224647609797508120, 6504722243125262330, 6776217641975885110, 7038775724572676950, 7292050196789283230, 7535707008888089040, 7769424796110233710, 7992895302536617880, 8205823787661602220, 8407929415144330520, 8598945623226849550, 8778620476333659370, 8946716997394463340, 9103013480461658300, 9247303783228619500, 9379397599098926140, 9499120708522102560, 9606315209428984490, 9700839726857401310, 9782569602536847170, 9851397067325024140, 9907231407455187050, 9949999174853378960, 9979644770352439450, 9996135688413258570]
def legRow87 : List Int := [-9996223504324842720, -9980107215629823580, -9951134581379920060, -9909336501109645710, -9854766060684203680, -9787493410038162720, -9707605197472842740, -9615204369360731690, -9510410013893135740, -9393357199742057480, -9264196798912372200, -9123095290941228840, -8970234547675693670, -8805811598520418410, -8630038376297066030, -8443141443970352200, -8245361702557804800, -8036954080581777780, -7818187205454377360, -7589343057213493160, -7350716605053137940, -7102615427114729030, -6845359314028236740, -6579279856713493910, -6304720018972504470, -6022033695423352020, -5731585255345304120, -5433749073022933530, -5128909045194522590, -4817458096226668050, -4499797671652843780, -4176337220728690550, -3847493668670968640, -3513690879260413160, -3175359108501157140, -2832934450040918730, -2486858273066771320, -2137576653401016040, -1785539798530442140, -1431201467310081390, -1075018385089427720, -717449655014994297, -358956166268008995, 0, 358956166268008995, 717449655014994297, 1075018385089427720, 1431201467310081390, 1785539798530442140, 2137576653401016040, 2486858273066771320, 2832934450040918730, 3175359108501157140, 3513690879260413160, 3847493668670968640, 4176337220728690550, 4499797671652843780, 4817458096226668050, 5128909045194522590, 5433749073022933530, 5731585255345304120, 6022033695423352020, 6304720018972504470, 6579279856713493910, 6845359314028236740, 7102615427114729030, 7350716605053137940, 7589343057213493160, 7818187205454377360, 8036954080581777780, 8245361702557804800, 8443141443970352200, 8630038376297066030, 8805811598520418410, 8970234547675693670, 9123095290941228840, 9264196798912372200, 9393357199742057480, 9510410013893135740, 9615204369360731690, 9707605197472842740, 9787493410038162720, 9854766060684203680, 9909336501109645710, 9951134581379920060, 9980107215629823580, 9996223504324842720]
def legRow88 : List Int := [-9996308360562706560, -9980554080532496780, -9952231758879888710, -9911370781540155550, -9858021860877635520, -9792252031542967040, -9714144101413222760, -9623796460637706830, -9521322934638021120, -9406852633026435450, -9280529783946920560, -9142513551045271910, -8992977832300570550, -8832111040594505820, -8660115866137813340, -8477209020982090870, -8283620965904562450, -8079595619992364920, -7865390053282871570, -7641274162842068420, -7407530332686077740, -7164453077972504860, -6912348673908804380, -6651534769844531720, -6382339989033264500, -6105103514568189860, -5820174662012873580, -5527912439265554730, -5228685094211437540, -4922869650732867230, -4610851433661965110, -4293023583274243700, -3969786559934910500, -3641547639521982880, -3308720400261962750, -2971724201624643060, -2630983655933626000, -2286928093358313140, -1939991020961467890, -1590609576483942160, -1239223977554790620, -886276967020760588, -532213255094035765, -177478959021120983, 177478959021120983, 532213255094035765, 886276967020760588, 1239223977554790620, 1590609576483942160, 1939991020961467890, 2286928093358313140, 2630983655933626000, 2971724201624643060, 3308720400261962750, 3641547639521982880, 3969786559934910500, 4293023583274243700, 4610851433661965110, 4922869650732867230, 5228685094211437540, 5527912439265554730, 5820174662012873580, 6105103514568189860, 6382339989033264500, 6651534769844531720, 6912348673908804380, 7164453077972504860, 7407530332686077740, 7641274162842068420, 7865390053282871570, 8079595619992364920, 8283620965904562450, 8477209020982090870, 8660115866137813340, 8832111040594505820, 8992977832300570550, 9142513551045271910, 9280529783946920560, 9406852633026435450, 9521322934638021120, 9623796460637706830, 9714144101413222760, 9792252031542967040, 9858021860877635520, 9911370781540155550, 9952231758879888710, 9980554080532496780, 9996308360562706560]
def legRow89 : List Int := [-9996390388645334600, -9980986057102739290, -9953292404067497600, -9913337388086653010, -9861169478611036740, -9796852765838766410, -9720466427489093600, -9632104546565354420, -9531875972928409410, -9419904181702149190, -9296327118237186030, -9161297026888234310, -9014980262839977520, -8857557086844699480, -8689221442970837190, -8510180719566774470, -8320655493700791270, -8120879259374860300, -7911098139837933710, -7691570584348011000, -7462567049753600090, -7224369667285082430, -6977271894965399060, -6721578156067595510, -6457603464064198490, -6185673034530191210, -5906121884477523930, -5619294419614643050, -5325544010039439570, -5025232554888295510, -4718730036477531640, -4406414064486518190, -4088669410743988190, -3765887535190676040, -3438466103602279520, -3106808497666898000, -2771323318020521180, -2432423880852820500, -2090527708703417560, -1746056016075962740, -1399433190503741970, -1051086269706134120, -701444415480057921, -350938384974570014, 0, 350938384974570014, 701444415480057921, 1051086269706134120, 1399433190503741970, 1746056016075962740, 2090527708703417560, 2432423880852820500, 2771323318020521180, 3106808497666898000, 3438466103602279520, 3765887535190676040, 4088669410743988190, 4406414064486518190, 4718730036477531640, 5025232554888295510, 5325544010039439570, 5619294419614643050, 5906121884477523930, 6185673034530191210, 6457603464064198490, 6721578156067595510, 6977271894965399060, 7224369667285082430, 7462567049753600090, 7691570584348011000, 7911098139837933710, 8120879259374860300, 8320655493700791270, 8510180719566774470, 8689221442970837190, 8857557086844699480, 9014980262839977520, 9161297026888234310, 9296327118237186030, 9419904181702149190, 9531875972928409410, 9632104546565354420, 9720466427489093600, 9796852765838766410, 9861169478611036740, 9913337388086653010, 9953292404067497600, 9980986057102739290, 9996390388645334600]
def legRow90 : List Int := [-9996469712866384370, -9981403799385681540, -9954318120583446640, -9915239288110627860, -9864213650578328490, -9801302513451483850, -9726581620901931400, -9640140981715054830, -9542084738815003360, -9432531036453577680, -9311611875004320070, -9179472950665863830, -9036273479313026940, -8882186004347459810, -8717396188629034340, -8542102590670718820, -8356516425333770460, -8160861309294810560, -7955372991582481350, -7740299069503342470, -7515898690296384680, -7282442238873903640, -7040211012023911440, -6789496879465971460, -6530601932168421920, -6263838118350451270, -5989526867607421860, -5707998703612209790, -5419592845859134260, -5124656800930279710, -4823545943776656930, -4516623089518693680, -4204258056281977560, -3886827219594982070, -3564713058885678460, -3238303696623459670, -2907992430661666520, -2574177260344201300, -2237260406947228590, -1897647829033790190, -1555748733305291200, -1211975081539240830, -866741094207347701, -520462751372069491, -173557291462996525, 173557291462996525, 520462751372069491, 866741094207347701, 1211975081539240830, 1555748733305291200, 1897647829033790190, 2237260406947228590, 2574177260344201300, 2907992430661666520, 3238303696623459670, 3564713058885678460, 3886827219594982070, 4204258056281977560, 4516623089518693680, 4823545943776656930, 5124656800930279710, 5419592845859134260, 5707998703612209790, 5989526867607421860, 6263838118350451270, 6530601932168421920, 6789496879465971460, 7040211012023911440, 7282442238873903640, 7515898690296384680, 7740299069503342470, 7955372991582481350, 8160861309294810560, 8356516425333770460, 8542102590670718820, 8717396188629034340, 8882186004347459810, 9036273479313026940, 9179472950665863830, 9311611875004320070, 9432531036453577680, 9542084738815003360, 9640140981715054830, 9726581620901931400, 9801302513451483850, 9864213650578328490, 9915239288110627860, 9954318120583446640, 9981403799385681540, 9996469712866384370]
def legRow91 : List Int := [-9996546450765761300, -9981807925905347550, -9955310425053524540, -9917079288172771020, -9867158857234697870, -9805607802412134390, -9732498618306907340, -9647917457472760760, -9551964007322763640, -9444751365457186680, -9326405903562644070, -9197067117234504880, -9056887460965718650, -8906032168143974040, -8744679056122303860, -8573018316526425790, -8391252291013870320, -8199595232732803340, -7998273053752922410, -7787523058761223450, -7567593665333692890, -7338744111110947820, -7101244148221938720, -6855373725315246550, -6601422657572347900, -6339690285091532810, -6070485120044960530, -5794124483024631320, -5510934129005835600, -5221247863368905880, -4925407148431834180, -4623760700957514520, -4316664081110018030, -4004479273344393050, -3687574259723995630, -3366322586168284910, -3041102922142353180, -2712298614307192690, -2380297234656821190, -2045490123674887740, -1708271929049251670, -1369040140488264160, -1028194621187077220, -686137136496254157, -343270880348253308, 0, 343270880348253308, 686137136496254157, 1028194621187077220, 1369040140488264160, 1708271929049251670, 2045490123674887740, 2380297234656821190, 2712298614307192690, 3041102922142353180, 3366322586168284910, 3687574259723995630, 4004479273344393050, 4316664081110018030, 4623760700957514520, 4925407148431834180, 5221247863368905880, 5510934129005835600, 5794124483024631320, 6070485120044960530, 6339690285091532810, 6601422657572347900, 6855373725315246550, 7101244148221938720, 7338744111110947820, 7567593665333692890, 7787523058761223450, 7998273053752922410, 8199595232732803340, 8391252291013870320, 8573018316526425790, 8744679056122303860, 8906032168143974040, 9056887460965718650, 9197067117234504880, 9326405903562644070, 9444751365457186680, 9551964007322763640, 9647917457472760760, 9732498618306907340, 9805607802412134390, 9867158857234697870, 9917079288172771020, 9955310425053524540, 9981807925905347550, 9996546450765761300]
def legRow92 : List Int := [-9996620713565245540, -9982199021954501540, -9956270752692151690, -9918860044372534790, -9870009339240120410, -9809774812101540270, -9738225880269419350, -9655445044215959010, -9561527771340069470, -9456582378843629560, -9340729906070954980, -9214103973710760550, -9076850629109250440, -8929128177527762040, -8771106999395696700, -8602969353704468830, -8424909167737809400, -8237131813364887640, -8039853870145664380, -7833302875516899790, -7617717062344162760, -7393345084140880380, -7160445728270332020, -6919287617460730390, -6670148899977240780, -6413316928808014930, -6149087930234077200, -5877766662165203730, -5599666062635777660, -5315106888865978780, -5024417347304565140, -4727932715079918350, -4425994953295942320, -4118952312618817090, -3807158931609505700, -3490974428265281840, -3170763485241381070, -2846895429231169430, -2519743804989961800, -2189685944493801520, -1857102531730124510, -1522377163622269960, -1185895907594259290, -848046856286140127, -509219679933479234, -169805176927282344, 169805176927282344, 509219679933479234, 848046856286140127, 1185895907594259290, 1522377163622269960, 1857102531730124510, 2189685944493801520, 2519743804989961800, 2846895429231169430, 3170763485241381070, 3490974428265281840, 3807158931609505700, 4118952312618817090, 4425994953295942320, 4727932715079918350, 5024417347304565140, 5315106888865978780, 5599666062635777660, 5877766662165203730, 6149087930234077200, 6413316928808014930, 6670148899977240780, 6919287617460730390, 7160445728270332020, 7393345084140880380, 7617717062344162760, 7833302875516899790, 8039853870145664380, 8237131813364887640, 8424909167737809400, 8602969353704468830, 8771106999395696700, 8929128177527762040, 9076850629109250440, 9214103973710760550, 9340729906070954980, 9456582378843629560, 9561527771340069470, 9655445044215959010, 9738225880269419350, 9809774812101540270, 9870009339240120410, 9918860044372534790, 9956270752692151690, 9982199021954501540, 9996620713565245540]
def legRow93 : List Int := [-9996692606571686880, -9982577641714127760, -9957200462489501790, -9920584071920627410, -9872769112685722660, -9813809395335016070, -9743771421334104570, -9662734230400591260, -9570789290651233520, -9468040388484754540, -9354603508751892510, -9230606702658534840, -9096189942656764460, -8951504964149990270, -8796715094050029620, -8631995066316017150, -8457530824652613030, -8273519312574519160, -8080168251065865790, -7877695904080752010, -7666330832146929590, -7446311634349144600, -7217886678982396510, -6981313823178534090, -6736860121822279160, -6484801526084998930, -6225422571916356330, -5959016058845360440, -5685882719453316830, -5406330879891732170, -5120676111828354270, -4829240876214216570, -4532354159273797460, -4230351101129189600, -3923572617477493870, -3612365014748497280, -3297079599177056430, -2978072280231479090, -2655703168845568810, -2330336170907864440, -2002338576466960970, -1672080645116634570, -1339935188028807470, -1006277147106172780, -671483171729551044, -335931193577765613, 0, 335931193577765613, 671483171729551044, 1006277147106172780, 1339935188028807470, 1672080645116634570, 2002338576466960970, 2330336170907864440, 2655703168845568810, 2978072280231479090, 3297079599177056430, 3612365014748497280, 3923572617477493870, 4230351101129189600, 4532354159273797460, 4829240876214216570, 5120676111828354270, 5406330879891732170, 5685882719453316830, 5959016058845360440, 6225422571916356330, 6484801526084998930, 6736860121822279160, 6981313823178534090, 7217886678982396510, 7446311634349144600, 7666330832146929590, 7877695904080752010, 8080168251065865790, 8273519312574519160, 8457530824652613030, 8631995066316017150, 8796715094050029620, 8951504964149990270, 9096189942656764460, 9230606702658534840, 9354603508751892510, 9468040388484754540, 9570789290651233520, 9662734230400591260, 9743771421334104570, 9813809395335016070, 9872769112685722660, 9920584071920627410, 9957200462489501790, 9982577641714127760, 9996692606571686880]
def legRow94 : List Int := [-9996762229550497950, -9982944310216876060, -9958100842017188790, -9922253754008766580, -9875441983204797890, -9817717098833782300, -9749142837904650430, -9669794958813433890, -9579761137429550240, -9479140863487617230, -9368045328028253780, -9246597299379514750, -9114930986940574860, -8973191892587679930, -8821536649728722610, -8660132850121986730, -8489158858620334000, -8308803616030173780, -8119266430294828830, -7920756756228451660, -7713493964041236990, -7497707096910135170, -7273634617861990590, -7041524146248202410, -6801632184101726210, -6554223832678552550, -6299572499496731900, -6037959596196572230, -5769674227555816210, -5495012872003404000, -5214279053984839410, -4927783008541193540, -4635841338472392790, -4338776664463638930, -4036917268561589450, -3730596731394278400, -3420153563535674060, -3105930831422241860, -2788275778234902860, -2467539440165342520, -2144076258490726110, -1818243687885509460, -1490401801403192620, -1160912892564544220, -830141074992022328, -498451880032829204, -166211852815260338, 166211852815260338, 498451880032829204, 830141074992022328, 1160912892564544220, 1490401801403192620, 1818243687885509460, 2144076258490726110, 2467539440165342520, 2788275778234902860, 3105930831422241860, 3420153563535674060, 3730596731394278400, 4036917268561589450, 4338776664463638930, 4635841338472392790, 4927783008541193540, 5214279053984839410, 5495012872003404000, 5769674227555816210, 6037959596196572230, 6299572499496731900, 6554223832678552550, 6801632184101726210, 7041524146248202410, 7273634617861990590, 7497707096910135170, 7713493964041236990, 7920756756228451660, 8119266430294828830, 8308803616030173780, 8489158858620334000, 8660132850121986730, 8821536649728722610, 8973191892587679930, 9114930986940574860, 9246597299379514750, 9368045328028253780, 9479140863487617230, 9579761137429550240, 9669794958813433890, 9749142837904650430, 9817717098833782300, 9875441983204797890, 9922253754008766580, 9958100842017188790, 9982944310216876060, 9996762229550497950]
def legRow95 : List Int := [-9996829677071920190, -9983299525167463320, -9958973111884234020, -9923871350035014040, -9878031559060812880, -9821503182216256460, -9754347334114409120, -9676636660221965240, -9588455238479094490, -9489898481742954820, -9381073031984780370, -9262096643777197760, -9133098056340673470, -8994216853963932040, -8845603314814405570, -8687418248241299050, -8519832820717842810, -8343028370596013220, -8157196211866096540, -7962537427128931890, -7759262650002239560, -7547591837194923920, -7327754030495021180, -7099987108928231060, -6864537531354822090, -6621660069783180260, -6371617533688400270, -6114680485634106960, -5851126948505140890, -5581242104667844040, -5305317987383432890, -5023653164808340430, -4736552416923437780, -4444326405741703400, -4147291339151185160, -3845768628756990110, -3540084542092533060, -3230569849576368890, -2917559466596620740, -2601392091110289090, -2282409837149581040, -1960957864631827780, -1637384005873559350, -1312038389212871360, -985273060147348575, -657441600397497986, -328898745307889387, 0, 328898745307889387, 657441600397497986, 985273060147348575, 1312038389212871360, 1637384005873559350, 1960957864631827780, 2282409837149581040, 2601392091110289090, 2917559466596620740, 3230569849576368890, 3540084542092533060, 3845768628756990110, 4147291339151185160, 4444326405741703400, 4736552416923437780, 5023653164808340430, 5305317987383432890, 5581242104667844040, 5851126948505140890, 6114680485634106960, 6371617533688400270, 6621660069783180260, 6864537531354822090, 7099987108928231060, 7327754030495021180, 7547591837194923920, 7759262650002239560, 7962537427128931890, 8157196211866096540, 8343028370596013220, 8519832820717842810, 8687418248241299050, 8845603314814405570, 8994216853963932040, 9133098056340673470, 9262096643777197760, 9381073031984780370, 9489898481742954820, 9588455238479094490, 9676636660221965240, 9754347334114409120, 9821503182216256460, 9878031559060812880, 9923871350035014040, 9958973111884234020, 9983299525167463320, 9996829677071920190]
def legRow96 : List Int := [-9996895038832307670, -9983643758631816780, -9959818429872092910, -9925439003237626250, -9880541263296238000, -9825172635630146770, -9759391745851364660, -9683268284632642120, -9596882914487425390, -9500327177844376360, -9393703397527552170, -9277124567223086910, -9150714231208980740, -9014606353158523410, -8868945174024204160, -8713885059092965030, -8549590334346014550, -8376235112281871210, -8194003107379316760, -8003087441391408170, -7803690438674332180, -7596023411766474990, -7380306437444001330, -7156768123489676260, -6925645366421715610, -6687183100439161540, -6441634037849671070, -6189258401254685700, -5930323647775720810, -5665104185613971680, -5393881083243574360, -5116941771546676740, -4834579739205963600, -4547094221677430090, -4254789884073005450, -3957976498289086030, -3656968614723136350, -3352085228926254230, -3043649443544963530, -2731988125910491420, -2417431561638400120, -2100313104605672040, -1780968823676186030, -1459737146548969420, -1136958501106659210, -812974954644255590, -488129851360497311, -162767448496029696, 162767448496029696, 488129851360497311, 812974954644255590, 1136958501106659210, 1459737146548969420, 1780968823676186030, 2100313104605672040, 2417431561638400120, 2731988125910491420, 3043649443544963530, 3352085228926254230, 3656968614723136350, 3957976498289086030, 4254789884073005450, 4547094221677430090, 4834579739205963600, 5116941771546676740, 5393881083243574360, 5665104185613971680, 5930323647775720810, 6189258401254685700, 6441634037849671070, 6687183100439161540, 6925645366421715610, 7156768123489676260, 7380306437444001330, 7596023411766474990, 7803690438674332180, 8003087441391408170, 8194003107379316760, 8376235112281871210, 8549590334346014550, 8713885059092965030, 8868945174024204160, 9014606353158523410, 9150714231208980740, 9277124567223086910, 9393703397527552170, 9500327177844376360, 9596882914487425390, 9683268284632642120, 9759391745851364660, 9825172635630146770, 9880541263296238000, 9925439003237626250, 9959818429872092910, 9983643758631816780, 9996895038832307670]
def legRow97 : List Int := [-9996958399952467250, -9983977458605664370, -9960637894774884130, -9926958747785516090, -9882974345018387870, -9828730196135283510, -9764282563086197650, -9689698330349509220, -9605054916527872460, -9510440187666391950, -9405952363580279840, -9291699914816191410, -9167801449531888880, -9034385590101216160, -8891590839443003620, -8739565437154142150, -8578467205567903010, -8408463385882867680, -8229730464524844420, -8042453989917705650, -7846828379850857290, -7643056719641820570, -7431350551302539380, -7211929653927705250, -6985021815532711170, -6750862596577849660, -6509695085424082550, -6261769645974138540, -6007343657760842080, -5746681248752441040, -5480053021152277350, -5207735770477428370, -4930012198207931970, -4647170618304888130, -4359504657902098760, -4067312952481959030, -3770898835852041440, -3470570025244213210, -3166638301863191880, -2859419187216169230, -2549231615559513990, -2236397602802595180, -1921241912212446460, -1604091717266313270, -1285276262002085450, -965126519219216069, -643974846884958480, -322154643102617089, 0, 322154643102617089, 643974846884958480, 965126519219216069, 1285276262002085450, 1604091717266313270, 1921241912212446460, 2236397602802595180, 2549231615559513990, 2859419187216169230, 3166638301863191880, 3470570025244213210, 3770898835852041440, 4067312952481959030, 4359504657902098760, 4647170618304888130, 4930012198207931970, 5207735770477428370, 5480053021152277350, 5746681248752441040, 6007343657760842080, 6261769645974138540, 6509695085424082550, 6750862596577849660, 6985021815532711170, 7211929653927705250, 7431350551302539380, 7643056719641820570, 7846828379850857290, 8042453989917705650, 8229730464524844420, 8408463385882867680, 8578467205567903010, 8739565437154142150, 8891590839443003620, 9034385590101216160, 9167801449531888880, 9291699914816191410, 9405952363580279840, 9510440187666391950, 9605054916527872460, 9689698330349509220, 9764282563086197650, 9828730196135283510, 9882974345018387870, 9926958747785516090, 9960637894774884130, 9983977458605664370, 9996958399952467250]
def legRow98 : List Int := [-9997019841254909040, -9984301050472304540, -9961432549968592960, -9928432515369067300, -9885333889891581680, -9832180362937229910, -9769025950638860830, -9695934871007944720, -9612981460028910580, -9520250089864015010, -9417835080627118210, -9305840603393070420, -9184380573735681170, -9053578535598391360, -8913567535488910660, -8764489987068441050, -8606497526245517530, -8439750856907704670, -8264419587440478550, -8080682058195343510, -7888725160080222670, -7688744144455177970, -7480942424525924510, -7265531368436584810, -7042730084271774240, -6812765197186463210, -6575870618890149050, -6332287309719698620, -6082263033542795330, -5826052105741239600, -5563915134530405860, -5296118755877948760, -5022935362291368600, -4744642825750288440, -4461524215065254490, -4173867507950543340, -3881965298103838640, -3586114497590719650, -3286616034836681590, -2983774548533875770, -2677898077773914140, -2369297748721921510, -2058287458150537700, -1745183554155765680, -1430304514379428750, -1113970622065536180, -796503640280059882, -478226484625493230, -159462894783093993, 159462894783093993, 478226484625493230, 796503640280059882, 1113970622065536180, 1430304514379428750, 1745183554155765680, 2058287458150537700, 2369297748721921510, 2677898077773914140, 2983774548533875770, 3286616034836681590, 3586114497590719650, 3881965298103838640, 4173867507950543340, 4461524215065254490, 4744642825750288440, 5022935362291368600, 5296118755877948760, 5563915134530405860, 5826052105741239600, 6082263033542795330, 6332287309719698620, 6575870618890149050, 6812765197186463210, 7042730084271774240, 7265531368436584810, 7480942424525924510, 7688744144455177970, 7888725160080222670, 8080682058195343510, 8264419587440478550, 8439750856907704670, 8606497526245517530, 8764489987068441050, 8913567535488910660, 9053578535598391360, 9184380573735681170, 9305840603393070420, 9417835080627118210, 9520250089864015010, 9612981460028910580, 9695934871007944720, 9769025950638860830, 9832180362937229910, 9885333889891581680, 9928432515369067300, 9961432549968592960, 9984301050472304540, 9997019841254909040]
def legRow99 : List Int := [-9997079439521693560, -9984614938358413390, -9962203386730886090, -9929862141331122770, -9887622829898736120, -9835527411562800130, -9773627767507059450, -9701985580742902150, -9620672256409019430, -9529768844533735030, -9429365956884794100, -9319563675614969640, -9200471453005002190, -9072208002105735680, -8934901178264142150, -8788687851595138500, -8633713770499170440, -8470133416347741470, -8298109849474305650, -8117814546619891350, -7929427229993088940, -7733135688113361450, -7529135588615381180, -7317630283200435220, -7098830604928968580, -6872954658056090980, -6640227600619384580, -6400881419995625250, -6155154701650071770, -5903292391308785640, -5645545550791015510, -5382171107745010330, -5113431599536710140, -4839594911546597000, -4560934010135566370, -4277726670545996220, -3990255200009241520, -3698806156335561940, -3403670062266994430, -3105141115877907360, -2803516897311912670, -2499098072147465390, -2192188091687840700, -1883092890474244760, -1572120581323583940, -1259581148194884620, -945786137190520319, -631048346000262402, -315681512097722652, 0, 315681512097722652, 631048346000262402, 945786137190520319, 1259581148194884620, 1572120581323583940, 1883092890474244760, 2192188091687840700, 2499098072147465390, 2803516897311912670, 3105141115877907360, 3403670062266994430, 3698806156335561940, 3990255200009241520, 4277726670545996220, 4560934010135566370, 4839594911546597000, 5113431599536710140, 5382171107745010330, 5645545550791015510, 5903292391308785640, 6155154701650071770, 6400881419995625250, 6640227600619384580, 6872954658056090980, 7098830604928968580, 7317630283200435220, 7529135588615381180, 7733135688113361450, 7929427229993088940, 8117814546619891350, 8298109849474305650, 8470133416347741470, 8633713770499170440, 8788687851595138500, 8934901178264142150, 9072208002105735680, 9200471453005002190, 9319563675614969640, 9429365956884794100, 9529768844533735030, 9620672256409019430, 9701985580742902150, 9773627767507059450, 9835527411562800130, 9887622829898736120, 9929862141331122770, 9962203386730886090, 9984614938358413390, 9997079439521693560]

/-- legendre_root_and_weight_function.c:36-4986 Legendre_root[N][0..N-1] for N < 100; row 0 is empty because no entry of it can be read -/
def legRow : List (List Int) := [legRow0, legRow1, legRow2, legRow3, legRow4, legRow5, legRow6, legRow7, legRow8, legRow9, legRow10, legRow11, legRow12, legRow13, legRow14, legRow15, legRow16, legRow17, legRow18, legRow19, legRow20, legRow21, legRow22, legRow23, legRow24, legRow25, legRow26, legRow27, legRow28, legRow29, legRow30, legRow31, legRow32, legRow33, legRow34, legRow35, legRow36, legRow37, legRow38, legRow39, legRow40, legRow41, legRow42, legRow43, legRow44, legRow45, legRow46, legRow47, legRow48, legRow49, legRow50, legRow51, legRow52, legRow53, legRow54, legRow55, legRow56, legRow57, legRow58, legRow59, legRow60, legRow61, legRow62, legRow63, legRow64, legRow65, legRow66, legRow67, legRow68, legRow69, legRow70, legRow71, legRow72, legRow73, legRow74, legRow75, legRow76, legRow77, legRow78, legRow79, legRow80, legRow81, legRow82, legRow83, legRow84, legRow85, legRow86, legRow87, legRow88, legRow89, legRow90, legRow91, legRow92, legRow93, legRow94, legRow95, legRow96, legRow97, legRow98, legRow99]

def lobRow0 : List Int := []
def lobRow1 : List Int := []
def lobRow2 : List Int := [0]
def lobRow3 : List Int := [-4472135954999579390, 4472135954999579390]
def lobRow4 : List Int := [-6546536707079771440, 0, 6546536707079771440]
def lobRow5 : List Int := [-7650553239294646930, -2852315164806450960, 2852315164806450960, 7650553239294646930]
def lobRow6 : List Int := [-8302238962785669300, -4688487934707142140, 0, 4688487934707142140, 8302238962785669300]
def lobRow7 : List Int := [-8717401485096066150, -5917001814331423020, -2092992179024788690, 2092992179024788690, 5917001814331423020, 8717401485096066150]
def lobRow8 : List Int := [-8997579954114601570, -6771862795107377530, -3631174638261781590, 0, 3631174638261781590, 6771862795107377530, 8997579954114601570]
def lobRow9 : List Int := [-9195339081664588140, -7387738651055050750, -4779249498104444960, -1652789576663870250, 1652789576663870250, 4779249498104444960, 7387738651055050750, 9195339081664588140]
def lobRow10 : List Int := [-9340014304080591340, -7844834736631444190, -5652353269962050060, -2957581355869393910, 0, 2957581355869393910, 5652353269962050060, 7844834736631444190, 9340014304080591340]
def lobRow11 : List Int := [-9448992722228822230, -8192793216440066780, -6328761530318606780, -3995309409653489320, -1365529328549275550, 1365529328549275550, 3995309409653489320, 6328761530318606780, 8192793216440066780, 9448992722228822230]
def lobRow12 : List Int := [-9533098466421639120, -8463475646518723170, -6861884690817574260, -4829098210913362020, -2492869301062399930, 0, 2492869301062399930, 4829098210913362020, 6861884690817574260, 8463475646518723170, 9533098466421639120]
def lobRow13 : List Int := [-9599350452672609010, -8678010538303472510, -7288685990913261410, -5506394029286470550, -3427240133427128450, -1163318688837038680, 1163318688837038680, 3427240133427128450, 5506394029286470550, 7288685990913261410, 8678010538303472510, 9599350452672609010]
def lobRow14 : List Int := [-9652459265038385730, -8850820442229762990, -7635196899518152010, -6062532054698457110, -4206380547136724810, -2153539553637942380, 0, 2153539553637942380, 4206380547136724810, 6062532054698457110, 7635196899518152010, 8850820442229762990, 9652459265038385730]
def lobRow15 : List Int := [-9695680462702179330, -8992005330934720930, -7920082918618150640, -6523887028824930890, -4860594218871376120, -2998304689007632080, -1013262735219494480, 1013262735219494480, 2998304689007632080, 4860594218871376120, 6523887028824930890, 7920082918618150640, 8992005330934720930, 9695680462702179330]
def lobRow16 : List Int := [-9731321766314183140, -9108799959155735960, -8156962512217703070, -6910289806276847050, -5413853993301015390, -3721744335654770420, -1895119735183173880, 0, 1895119735183173880, 3721744335654770420, 5413853993301015390, 6910289806276847050, 8156962512217703070, 9108799959155735960, 9731321766314183140]
def lobRow17 : List Int := [-9761055574121985430, -9206491853475338740, -8355935352180902140, -7236793292832426810, -5885048343186617610, -4344150369121239750, -2663626528782809840, -897490934846521110, 897490934846521110, 2663626528782809840, 4344150369121239750, 5885048343186617610, 7236793292832426810, 8355935352180902140, 9206491853475338740, 9761055574121985430]
def lobRow18 : List Int := [-9786117662220800950, -9289015281525862440, -8524605777966460930, -7514942025526130140, -6289081372652204980, -4882292856807135030, -3335048478244986100, -1691860234092815710, 0, 1691860234092815710, 3335048478244986100, 4882292856807135030, 6289081372652204980, 7514942025526130140, 8524605777966460930, 9289015281525862440, 9786117662220800950]
def lobRow19 : List Int := [-9807437048939141720, -9359344988126654360, -8668779780899501410, -7753682609520558700, -6637764022903112900, -5349928640318862620, -3923531837139092990, -2395517059229864950, -805459372388218380, 805459372388218380, 2395517059229864950, 3923531837139092990, 5349928640318862620, 6637764022903112900, 7753682609520558700, 8668779780899501410, 9359344988126654360, 9807437048939141720]
def lobRow20 : List Int := [-9825722966045480280, -9419762969597455340, -8792947553235904640, -7960019260777124050, -6940510260622232330, -5758319602618306870, -4441157832790021010, -3019898565087648870, -1527855158021854660, 0, 1527855158021854660, 3019898565087648870, 4441157832790021010, 5758319602618306870, 6940510260622232330, 7960019260777124050, 8792947553235904640, 9419762969597455340, 9825722966045480280]
def lobRow21 : List Int := [-9841524384576461770, -9472042839992286810, -8900622901909044700, -8139489276119211360, -7204872399612021580, -6116694382842589710, -4898148751899023500, -3575207101389195380, -2176065851592850420, -730545400108983348, 730545400108983348, 2176065851592850420, 3575207101389195380, 4898148751899023500, 6116694382842589710, 7204872399612021580, 8139489276119211360, 8900622901909044700, 9472042839992286810, 9841524384576461770]
def lobRow22 : List Int := [-9855271558787325780, -9517579557107102040, -8994585580403450110, -8296510966512858860, -7436950411720606840, -6432636444601362080, -5303117711368441680, -4070379379144748290, -2758415489457930670, -1392762040406683990, 0, 1392762040406683990, 2758415489457930670, 4070379379144748290, 5303117711368441680, 6432636444601362080, 7436950411720606840, 8296510966512858860, 8994585580403450110, 9517579557107102040, 9855271558787325780]
def lobRow23 : List Int := [-9867305535051608840, -9557482209298863580, -9077056751135065220, -8434640701548720410, -7641704824204933080, -6712401052641287000, -5663313579792953120, -4513163732143226180, -3282476133755109120, -1993212533908326670, -668379937372285781, 668379937372285781, 1993212533908326670, 3282476133755109120, 4513163732143226180, 5663313579792953120, 6712401052641287000, 7641704824204933080, 8434640701548720410, 9077056751135065220, 9557482209298863580, 9867305535051608840]
def lobRow24 : List Int := [-9877899449314937090, -9592641382525344790, -9149827707346225780, -8556764658353165780, -7823196592407167800, -6961170488151343670, -5984841472799932680, -4910241148188783830, -3755014578592272330, -2538130641688765800, -1279570594831069730, 0, 1279570594831069730, 2538130641688765800, 3755014578592272330, 4910241148188783830, 5984841472799932680, 6961170488151343670, 7823196592407167800, 8556764658353165780, 9149827707346225780, 9592641382525344790, 9877899449314937090]
def lobRow25 : List Int := [-9887274123114756540, -9623778747677173300, -9214355468175573410, -8665243239591235710, -7984771831074374390, -7183258163626650800, -6272852994923168880, -5267357420298785450, -4182013870662467860, -3033275128592527210, -1838554952700549010, -615964117819197282, 615964117819197282, 1838554952700549010, 3033275128592527210, 4182013870662467860, 5267357420298785450, 6272852994923168880, 7183258163626650800, 7984771831074374390, 8665243239591235710, 9214355468175573410, 9623778747677173300, 9887274123114756540]
def lobRow26 : List Int := [-9895609637285506210, -9651484024508189190, -9271834587251157790, -8762020862145224790, -8129204868958122880, -7382271498464599110, -6531706636968095150, -5589450609425611800, -4568730756140824040, -3483875819890286700, -2350114831029181330, -1183363338985210480, 0, 1183363338985210480, 2350114831029181330, 3483875819890286700, 4568730756140824040, 5589450609425611800, 6531706636968095150, 7382271498464599110, 8129204868958122880, 8762020862145224790, 9271834587251157790, 9651484024508189190, 9895609637285506210]
def lobRow27 : List Int := [-9903054026184541260, -9676242858571313040, -9323251671215585250, -8848710172113028380, -8258809700563381960, -7561241940055697650, -6765101289295733180, -5880766898371756070, -4919767539315793800, -3894631375763628080, -2818722666216023720, -1706067553080043610, -571171216935128976, 571171216935128976, 1706067553080043610, 2818722666216023720, 3894631375763628080, 4919767539315793800, 5880766898371756070, 6765101289295733180, 7561241940055697650, 8258809700563381960, 8848710172113028380, 9323251671215585250, 9676242858571313040, 9903054026184541260]
def lobRow28 : List Int := [-9909729882685698160, -9698458072879362940, -9369427185209825120, -8926657199760882790, -8375527362817865650, -7722728972064687410, -6976186613563679880, -6144962522034329500, -5239146743719690840, -4269734717134943880, -3248493828419110060, -2187820582842610200, -1100590133955921100, 0, 1100590133955921100, 2187820582842610200, 3248493828419110060, 4269734717134943880, 5239146743719690840, 6144962522034329500, 6976186613563679880, 7722728972064687410, 8375527362817865650, 8926657199760882790, 9369427185209825120, 9698458072879362940, 9909729882685698160]
def lobRow29 : List Int := [-9915739428405002930, -9718466031662692420, -9411047809510570820, -8996992181992768600, -8480994871801981100, -7868903572375470800, -7167653986370851320, -6385191758075584070, -5530382600950528520, -4612911901682406850, -3643175004224489980, -2632159437195737910, -1591320426258504680, -532451104854866694, 532451104854866694, 1591320426258504680, 2632159437195737910, 3643175004224489980, 4612911901682406850, 5530382600950528520, 6385191758075584070, 7167653986370851320, 7868903572375470800, 8480994871801981100, 8996992181992768600, 9411047809510570820, 9718466031662692420, 9915739428405002930]
def lobRow30 : List Int := [-9921168443464810890, -9736549358157364750, -9448691702080392300, -9060669514412698130, -8576599952974556100, -8001615431924629890, -7341811363090752420, -6604182026115255230, -5796546572080019130, -4927466190988324060, -4006153382805618060, -3042374312728726210, -2046345292475245010, -1028624487606822770, 0, 1028624487606822770, 2046345292475245010, 3042374312728726210, 4006153382805618060, 4927466190988324060, 5796546572080019130, 6604182026115255230, 7341811363090752420, 8001615431924629890, 8576599952974556100, 9060669514412698130, 9448691702080392300, 9736549358157364750, 9921168443464810890]
def lobRow31 : List Int := [-9926089339727613590, -9752946904827092280, -9482848384172323780, -9118499390637319040, -8663524760126755200, -8122447317774423450, -7500644939366747980, -6804297556155508160, -6040325871484211260, -5216322628815652910, -4340477172018469400, -3421494065388814860, -2468506588502053040, -1490985968136474950, -498647250465932523, 498647250465932523, 1490985968136474950, 2468506588502053040, 3421494065388814860, 4340477172018469400, 5216322628815652910, 6040325871484211260, 6804297556155508160, 7500644939366747980, 8122447317774423450, 8663524760126755200, 9118499390637319040, 9482848384172323780, 9752946904827092280, 9926089339727613590]
def lobRow32 : List Int := [-9930563584336583440, -9767861633169063010, -9513934513969957430, -9171173034509412410, -8742781007505622210, -8232759230040674700, -7645870017935286280, -6987593166181625960, -6264074912812682570, -5482070599191116230, -4648881616321067560, -3772287242533936350, -2860472014876740420, -1921949314674772260, -965481881761070063, 0, 965481881761070063, 1921949314674772260, 2860472014876740420, 3772287242533936350, 4648881616321067560, 5482070599191116230, 6264074912812682570, 6987593166181625960, 7645870017935286280, 8232759230040674700, 8742781007505622210, 9171173034509412410, 9513934513969957430, 9767861633169063010, 9930563584336583440]
def lobRow33 : List Int := [-9934643625875162020, -9781466888799379490, -9542306489128075280, -9219282956774489230, -8815238365122732640, -8333724428031426150, -7778973064318674110, -7155859607202190060, -6469860079360146240, -5727003112749228450, -4933816986732709570, -4097272265595927450, -3224720545114889940, -2323829848691168430, -1402517241761938580, -468879257129706801, 468879257129706801, 1402517241761938580, 2323829848691168430, 3224720545114889940, 4097272265595927450, 4933816986732709570, 5727003112749228450, 6469860079360146240, 7155859607202190060, 7778973064318674110, 8333724428031426150, 8815238365122732640, 9219282956774489230, 9542306489128075280, 9781466888799379490, 9934643625875162020]
def lobRow34 : List Int := [-9938374436443865500, -9793911434299206230, -9568270584369878820, -9263339320160819380, -8881647537179504550, -8426358953821997820, -7901246570847956200, -7310661783787652390, -6659498438657759570, -5953152320800832740, -5197476460622016640, -4398732641317170030, -3563539515654540760, -2698817763817207920, -1811732747656016660, -909635136967004112, 0, 909635136967004112, 1811732747656016660, 2698817763817207920, 3563539515654540760, 4398732641317170030, 5197476460622016640, 5953152320800832740, 6659498438657759570, 7310661783787652390, 7901246570847956200, 8426358953821997820, 8881647537179504550, 9263339320160819380, 9568270584369878820, 9793911434299206230, 9938374436443865500]

/-- lobatto_root_and_weight_function.c:36-599 Lobatto_root[N][0..N-2] for N < 35 -/
def lobRow : List (List Int) := [lobRow0, lobRow1, lobRow2, lobRow3, lobRow4, lobRow5, lobRow6, lobRow7, lobRow8, lobRow9, lobRow10, lobRow11, lobRow12, lobRow13, lobRow14, lobRow15, lobRow16, lobRow17, lobRow18, lobRow19, lobRow20, lobRow21, lobRow22, lobRow23, lobRow24, lobRow25, lobRow26, lobRow27, lobRow28, lobRow29, lobRow30, lobRow31, lobRow32, lobRow33, lobRow34]

end Elliptica.RootTables
