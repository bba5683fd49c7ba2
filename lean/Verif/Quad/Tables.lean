/-!
# Quadrature tables of geotecha/mathematics/quadrature.py

Generated by tools/gen_quad.py.  Entries are in units of 1e-25 (every decimal in the source has at most 25 places).
-/

namespace Geotecha.Quad

/-- (abscissa, weight) rows for n = 2, quadrature.py:517-520. -/
def gl2 : List (Int × Int) :=
  [(-5773502691896257645091488, 10000000000000000000000000),
   (5773502691896257645091488, 10000000000000000000000000)]

/-- (abscissa, weight) rows for n = 3, quadrature.py:521-525. -/
def gl3 : List (Int × Int) :=
  [(-7745966692414833770358531, 5555555555555555555555556), (0, 8888888888888888888888889),
   (7745966692414833770358531, 5555555555555555555555556)]

/-- (abscissa, weight) rows for n = 4, quadrature.py:526-531. -/
def gl4 : List (Int × Int) :=
  [(-8611363115940525752239465, 3478548451374538573730639),
   (-3399810435848562648026658, 6521451548625461426269361),
   (3399810435848562648026658, 6521451548625461426269361), (8611363115940525752239465, 3478548451374538573730639)]

/-- (abscissa, weight) rows for n = 5, quadrature.py:532-538. -/
def gl5 : List (Int × Int) :=
  [(-9061798459386639927976269, 2369268850561890875142640),
   (-5384693101056830910363144, 4786286704993664680412915), (0, 5688888888888888888888889),
   (5384693101056830910363144, 4786286704993664680412915), (9061798459386639927976269, 2369268850561890875142640)]

/-- (abscissa, weight) rows for n = 6, quadrature.py:539-546. -/
def gl6 : List (Int × Int) :=
  [(-9324695142031520278123016, 1713244923791703450402961),
   (-6612093864662645136613996, 3607615730481386075698335),
   (-2386191860831969086305017, 4679139345726910473898703),
   (2386191860831969086305017, 4679139345726910473898703), (6612093864662645136613996, 3607615730481386075698335),
   (9324695142031520278123016, 1713244923791703450402961)]

/-- (abscissa, weight) rows for n = 7, quadrature.py:547-555. -/
def gl7 : List (Int × Int) :=
  [(-9491079123427585245261897, 1294849661688696932706114),
   (-7415311855993944398638648, 2797053914892766679014678),
   (-4058451513773971669066064, 3818300505051189449503698), (0, 4179591836734693877551020),
   (4058451513773971669066064, 3818300505051189449503698), (7415311855993944398638648, 2797053914892766679014678),
   (9491079123427585245261897, 1294849661688696932706114)]

/-- (abscissa, weight) rows for n = 8, quadrature.py:556-565. -/
def gl8 : List (Int × Int) :=
  [(-9602898564975362316835609, 1012285362903762591525314),
   (-7966664774136267395915539, 2223810344533744705443560),
   (-5255324099163289858177390, 3137066458778872873379622),
   (-1834346424956498049394761, 3626837833783619829651504),
   (1834346424956498049394761, 3626837833783619829651504), (5255324099163289858177390, 3137066458778872873379622),
   (7966664774136267395915539, 2223810344533744705443560), (9602898564975362316835609, 1012285362903762591525314)]

/-- (abscissa, weight) rows for n = 9, quadrature.py:566-576. -/
def gl9 : List (Int × Int) :=
  [(-9681602395076260898355762, 812743883615744119718922),
   (-8360311073266357942994298, 1806481606948574040584720),
   (-6133714327005903973087020, 2606106964029354623187429),
   (-3242534234038089290385380, 3123470770400028400686304), (0, 3302393550012597631645251),
   (3242534234038089290385380, 3123470770400028400686304), (6133714327005903973087020, 2606106964029354623187429),
   (8360311073266357942994298, 1806481606948574040584720), (9681602395076260898355762, 812743883615744119718922)]

/-- (abscissa, weight) rows for n = 10, quadrature.py:577-588. -/
def gl10 : List (Int × Int) :=
  [(-9739065285171717200779640, 666713443086881375935688),
   (-8650633666889845107320967, 1494513491505805931457763),
   (-6794095682990244062343274, 2190863625159820439955349),
   (-4333953941292471907992659, 2692667193099963550912269),
   (-1488743389816312108848260, 2955242247147528701738930),
   (1488743389816312108848260, 2955242247147528701738930), (4333953941292471907992659, 2692667193099963550912269),
   (6794095682990244062343274, 2190863625159820439955349), (8650633666889845107320967, 1494513491505805931457763),
   (9739065285171717200779640, 666713443086881375935688)]

/-- (abscissa, weight) rows for n = 11, quadrature.py:589-601. -/
def gl11 : List (Int × Int) :=
  [(-9782286581460569928039380, 556685671161736664827537),
   (-8870625997680952990751578, 1255803694649046246346943),
   (-7301520055740493240934163, 1862902109277342514260976),
   (-5190961292068118159257257, 2331937645919904799185237),
   (-2695431559523449723315320, 2628045445102466621806889), (0, 2729250867779006307144835),
   (2695431559523449723315320, 2628045445102466621806889), (5190961292068118159257257, 2331937645919904799185237),
   (7301520055740493240934163, 1862902109277342514260976), (8870625997680952990751578, 1255803694649046246346943),
   (9782286581460569928039380, 556685671161736664827537)]

/-- (abscissa, weight) rows for n = 12, quadrature.py:602-615. -/
def gl12 : List (Int × Int) :=
  [(-9815606342467192506905491, 471753363865118271946160),
   (-9041172563704748566784659, 1069393259953184309602547),
   (-7699026741943046870368938, 1600783285433462263346525),
   (-5873179542866174472967024, 2031674267230659217490645),
   (-3678314989981801937526915, 2334925365383548087608499),
   (-1252334085114689154724414, 2491470458134027850005624),
   (1252334085114689154724414, 2491470458134027850005624), (3678314989981801937526915, 2334925365383548087608499),
   (5873179542866174472967024, 2031674267230659217490645), (7699026741943046870368938, 1600783285433462263346525),
   (9041172563704748566784659, 1069393259953184309602547), (9815606342467192506905491, 471753363865118271946160)]

/-- (abscissa, weight) rows for n = 13, quadrature.py:616-630. -/
def gl13 : List (Int × Int) :=
  [(-9841830547185881494728294, 404840047653158795200216), (-9175983992229779652065478, 921214998377284479144218),
   (-8015780907333099127942065, 1388735102197872384636018),
   (-6423493394403402206439846, 1781459807619457382800467),
   (-4484927510364468528779129, 2078160475368885023125232),
   (-2304583159551347940655281, 2262831802628972384120902), (0, 2325515532308739101945895),
   (2304583159551347940655281, 2262831802628972384120902), (4484927510364468528779129, 2078160475368885023125232),
   (6423493394403402206439846, 1781459807619457382800467), (8015780907333099127942065, 1388735102197872384636018),
   (9175983992229779652065478, 921214998377284479144218), (9841830547185881494728294, 404840047653158795200216)]

/-- (abscissa, weight) rows for n = 14, quadrature.py:631-646. -/
def gl14 : List (Int × Int) :=
  [(-9862838086968123388415973, 351194603317518630318329), (-9284348836635735173363911, 801580871597602098056333),
   (-8272013150697649931897947, 1215185706879031846894148),
   (-6872929048116854701480198, 1572031671581935345696019),
   (-5152486363581540919652907, 1855383974779378137417166),
   (-3191123689278897604356718, 2051984637212956039659241),
   (-1080549487073436620662447, 2152638534631577901958764),
   (1080549487073436620662447, 2152638534631577901958764), (3191123689278897604356718, 2051984637212956039659241),
   (5152486363581540919652907, 1855383974779378137417166), (6872929048116854701480198, 1572031671581935345696019),
   (8272013150697649931897947, 1215185706879031846894148), (9284348836635735173363911, 801580871597602098056333),
   (9862838086968123388415973, 351194603317518630318329)]

/-- (abscissa, weight) rows for n = 15, quadrature.py:647-663. -/
def gl15 : List (Int × Int) :=
  [(-9879925180204854284895657, 307532419961172683546284), (-9372733924007059043077589, 703660474881081247092674),
   (-8482065834104272162006483, 1071592204671719350118695),
   (-7244177313601700474161861, 1395706779261543144478048),
   (-5709721726085388475372267, 1662692058169939335532009),
   (-3941513470775633698972074, 1861610000155622110268006),
   (-2011940939974345223006283, 1984314853271115764561183), (0, 2025782419255612728806202),
   (2011940939974345223006283, 1984314853271115764561183), (3941513470775633698972074, 1861610000155622110268006),
   (5709721726085388475372267, 1662692058169939335532009), (7244177313601700474161861, 1395706779261543144478048),
   (8482065834104272162006483, 1071592204671719350118695), (9372733924007059043077589, 703660474881081247092674),
   (9879925180204854284895657, 307532419961172683546284)]

/-- (abscissa, weight) rows for n = 16, quadrature.py:664-681. -/
def gl16 : List (Int × Int) :=
  [(-9894009349916499325961542, 271524594117540948517806), (-9445750230732325760779884, 622535239386478928628438),
   (-8656312023878317438804679, 951585116824927848099251),
   (-7554044083550030338951012, 1246289712555338720524763),
   (-6178762444026437484466718, 1495959888165767320815017),
   (-4580167776572273863424194, 1691565193950025381893121),
   (-2816035507792589132304605, 1826034150449235888667637),
   (-950125098376374401853193, 1894506104550684962853967), (950125098376374401853193, 1894506104550684962853967),
   (2816035507792589132304605, 1826034150449235888667637), (4580167776572273863424194, 1691565193950025381893121),
   (6178762444026437484466718, 1495959888165767320815017), (7554044083550030338951012, 1246289712555338720524763),
   (8656312023878317438804679, 951585116824927848099251), (9445750230732325760779884, 622535239386478928628438),
   (9894009349916499325961542, 271524594117540948517806)]

/-- (abscissa, weight) rows for n = 17, quadrature.py:682-700. -/
def gl17 : List (Int × Int) :=
  [(-9905754753144173356754340, 241483028685479319601100), (-9506755217687677612227170, 554595293739872011294402),
   (-8802391537269859021229557, 850361483171791808835354),
   (-7815140038968014069252301, 1118838471934039710947884),
   (-6576711592166907658503022, 1351363684685254732863200),
   (-5126905370864769678862466, 1540457610768102880814316),
   (-3512317634538763152971855, 1680041021564500445099707),
   (-1784841814958478558506775, 1765627053669926463252710), (0, 1794464703562065254582656),
   (1784841814958478558506775, 1765627053669926463252710), (3512317634538763152971855, 1680041021564500445099707),
   (5126905370864769678862466, 1540457610768102880814316), (6576711592166907658503022, 1351363684685254732863200),
   (7815140038968014069252301, 1118838471934039710947884), (8802391537269859021229557, 850361483171791808835354),
   (9506755217687677612227170, 554595293739872011294402), (9905754753144173356754340, 241483028685479319601100)]

/-- (abscissa, weight) rows for n = 18, quadrature.py:701-720. -/
def gl18 : List (Int × Int) :=
  [(-9915651684209309467300160, 216160135264833103133427), (-9558239495713977551811959, 497145488949697964533349),
   (-8926024664975557392060606, 764257302548890565291297),
   (-8037049589725231156824175, 1009420441062871655628140),
   (-6916870430603532078748911, 1225552067114784601845191),
   (-5597708310739475346078715, 1406429146706506512047313),
   (-4117511614628426460359318, 1546846751262652449254180),
   (-2518862256915055095889729, 1642764837458327229860538),
   (-847750130417353012422619, 1691423829631435918406565), (847750130417353012422619, 1691423829631435918406565),
   (2518862256915055095889729, 1642764837458327229860538), (4117511614628426460359318, 1546846751262652449254180),
   (5597708310739475346078715, 1406429146706506512047313), (6916870430603532078748911, 1225552067114784601845191),
   (8037049589725231156824175, 1009420441062871655628140), (8926024664975557392060606, 764257302548890565291297),
   (9558239495713977551811959, 497145488949697964533349), (9915651684209309467300160, 216160135264833103133427)]

/-- (abscissa, weight) rows for n = 19, quadrature.py:721-741. -/
def gl19 : List (Int × Int) :=
  [(-9924068438435844031890177, 194617882297264770363120), (-9602081521348300308527788, 448142267656996003328382),
   (-9031559036148179016426609, 690445427376412265807083), (-8227146565371428249789225, 914900216224499994644621),
   (-7209661773352293786170959, 1115666455473339947160239),
   (-6005453046616810234696382, 1287539625393362276755158),
   (-4645707413759609457172671, 1426067021736066117757461),
   (-3165640999636298319901173, 1527660420658596667788554),
   (-1603586456402253758680961, 1589688433939543476499564), (0, 1610544498487836959791636),
   (1603586456402253758680961, 1589688433939543476499564), (3165640999636298319901173, 1527660420658596667788554),
   (4645707413759609457172671, 1426067021736066117757461), (6005453046616810234696382, 1287539625393362276755158),
   (7209661773352293786170959, 1115666455473339947160239), (8227146565371428249789225, 914900216224499994644621),
   (9031559036148179016426609, 690445427376412265807083), (9602081521348300308527788, 448142267656996003328382),
   (9924068438435844031890177, 194617882297264770363120)]

/-- (abscissa, weight) rows for n = 20, quadrature.py:742-763. -/
def gl20 : List (Int × Int) :=
  [(-9931285991850949247861224, 176140071391521183118620), (-9639719272779137912676661, 406014298003869413310400),
   (-9122344282513259058677524, 626720483341090635695065), (-8391169718222188233945291, 832767415767047487247581),
   (-7463319064601507926143051, 1019301198172404350367501),
   (-6360536807265150254528367, 1181945319615184173123774),
   (-5108670019508270980043641, 1316886384491766268984945),
   (-3737060887154195606725482, 1420961093183820513292983),
   (-2277858511416450780804962, 1491729864726037467878287),
   (-765265211334973337546404, 1527533871307258506980843), (765265211334973337546404, 1527533871307258506980843),
   (2277858511416450780804962, 1491729864726037467878287), (3737060887154195606725482, 1420961093183820513292983),
   (5108670019508270980043641, 1316886384491766268984945), (6360536807265150254528367, 1181945319615184173123774),
   (7463319064601507926143051, 1019301198172404350367501), (8391169718222188233945291, 832767415767047487247581),
   (9122344282513259058677524, 626720483341090635695065), (9639719272779137912676661, 406014298003869413310400),
   (9931285991850949247861224, 176140071391521183118620)]

/-- (abscissa, weight) rows for n = 32, quadrature.py:764-797. -/
def gl32 : List (Int × Int) :=
  [(-9972638618494815635449811, 70186100094700966004071), (-9856115115452683354001750, 162743947309056706051706),
   (-9647622555875064307738119, 253920653092620594557526), (-9349060759377396891709191, 342738629130214331026877),
   (-8963211557660521239653072, 428358980222266806568786), (-8493676137325699701336930, 509980592623761761961632),
   (-7944837959679424069630973, 586840934785355471452836), (-7321821187402896803874267, 658222227763618468376501),
   (-6630442669302152009751152, 723457941088485062253994), (-5877157572407623290407455, 781938957870703064717409),
   (-5068999089322293900237475, 833119242269467552221991), (-4213512761306353453641194, 876520930044038111427715),
   (-3318686022821276497799168, 911738786957638847128686), (-2392873622521370745446032, 938443990808045656391802),
   (-1444719615827964934851864, 956387200792748594190820), (-483076656877383162348126, 965400885147278005667648),
   (483076656877383162348126, 965400885147278005667648), (1444719615827964934851864, 956387200792748594190820),
   (2392873622521370745446032, 938443990808045656391802), (3318686022821276497799168, 911738786957638847128686),
   (4213512761306353453641194, 876520930044038111427715), (5068999089322293900237475, 833119242269467552221991),
   (5877157572407623290407455, 781938957870703064717409), (6630442669302152009751152, 723457941088485062253994),
   (7321821187402896803874267, 658222227763618468376501), (7944837959679424069630973, 586840934785355471452836),
   (8493676137325699701336930, 509980592623761761961632), (8963211557660521239653072, 428358980222266806568786),
   (9349060759377396891709191, 342738629130214331026877), (9647622555875064307738119, 253920653092620594557526),
   (9856115115452683354001750, 162743947309056706051706), (9972638618494815635449811, 70186100094700966004071)]

/-- (abscissa, weight) rows for n = 64, quadrature.py:798-863. -/
def gl64 : List (Int × Int) :=
  [(-9993050417357721394569056, 17832807216964329472961), (-9963401167719552793469245, 41470332605624676352875),
   (-9910133714767443207393824, 65044579689783628561174), (-9833362538846259569312993, 88467598263639477230309),
   (-9733268277899109637418535, 111681394601311288185905), (-9610087996520537189186141, 134630478967186425980608),
   (-9464113748584028160624815, 157260304760247193219660), (-9295691721319395758214902, 179517157756973430850453),
   (-9105221370785028057563807, 201348231535302093723403), (-8893154459951141058534040, 222701738083832541592983),
   (-8659993981540928197607834, 243527025687108733381776), (-8406292962525803627516915, 263774697150546586716918),
   (-8132653151227975597419233, 283396726142594832275113), (-7839723589433414076102205, 302346570724024788679741),
   (-7528199072605318966118638, 320579283548515535854675), (-7198818501716108268489402, 338051618371416093915655),
   (-6852363130542332425635584, 354722132568823838106931), (-6489654712546573398577612, 370551285402400460404151),
   (-6111553551723932502488530, 385501531786156291289625), (-5718956462026340342838781, 399537411327203413866569),
   (-5312794640198945456580139, 412625632426235286101563), (-4894031457070529574785263, 424735151236535890073398),
   (-4463660172534640879849477, 435837245293234533768279), (-4022701579639916036957668, 445905581637565630601347),
   (-3572201583376681159504426, 454916279274181444797710), (-3113228719902109561575127, 462847965813144172959532),
   (-2646871622087674163739642, 469681828162100173253263), (-2174236437400070841496487, 475401657148303086622822),
   (-1696444204239928180373136, 479993885964583077281262), (-1214628192961205544703765, 483447622348029571697695),
   (-729931217877990394495429, 485754674415034269347991), (-243502926634244325089558, 486909570091397203833654),
   (243502926634244325089558, 486909570091397203833654), (729931217877990394495429, 485754674415034269347991),
   (1214628192961205544703765, 483447622348029571697695), (1696444204239928180373136, 479993885964583077281262),
   (2174236437400070841496487, 475401657148303086622822), (2646871622087674163739642, 469681828162100173253263),
   (3113228719902109561575127, 462847965813144172959532), (3572201583376681159504426, 454916279274181444797710),
   (4022701579639916036957668, 445905581637565630601347), (4463660172534640879849477, 435837245293234533768279),
   (4894031457070529574785263, 424735151236535890073398), (5312794640198945456580139, 412625632426235286101563),
   (5718956462026340342838781, 399537411327203413866569), (6111553551723932502488530, 385501531786156291289625),
   (6489654712546573398577612, 370551285402400460404151), (6852363130542332425635584, 354722132568823838106931),
   (7198818501716108268489402, 338051618371416093915655), (7528199072605318966118638, 320579283548515535854675),
   (7839723589433414076102205, 302346570724024788679741), (8132653151227975597419233, 283396726142594832275113),
   (8406292962525803627516915, 263774697150546586716918), (8659993981540928197607834, 243527025687108733381776),
   (8893154459951141058534040, 222701738083832541592983), (9105221370785028057563807, 201348231535302093723403),
   (9295691721319395758214902, 179517157756973430850453), (9464113748584028160624815, 157260304760247193219660),
   (9610087996520537189186141, 134630478967186425980608), (9733268277899109637418535, 111681394601311288185905),
   (9833362538846259569312993, 88467598263639477230309), (9910133714767443207393824, 65044579689783628561174),
   (9963401167719552793469245, 41470332605624676352875), (9993050417357721394569056, 17832807216964329472961)]

/-- (abscissa, weight) rows for n = 100, quadrature.py:864-965. -/
def gl100 : List (Int × Int) :=
  [(-9997137267734412336782285, 7346344905056717304063), (-9984919506395958184001634, 17093926535181052395294),
   (-9962951347331251491861317, 26839253715534824194396), (-9931249370374434596520099, 36559612013263751823425),
   (-9889843952429917480044187, 46244500634221193510958), (-9838775407060570154961002, 55884280038655151572119),
   (-9778093584869182885537811, 65469484508453227641521), (-9707857757637063319308979, 74990732554647115788287),
   (-9628136542558155272936593, 84438714696689714026208), (-9539007829254917428493369, 93804196536944579514182),
   (-9440558701362559779627747, 103078025748689695857821), (-9332885350430795459243337, 112251140231859771172216),
   (-9216092981453339526669513, 121314576629794974077448), (-9090295709825296904671263, 130259478929715422855586),
   (-8955616449707269866985210, 139077107037187726879541), (-8812186793850184155733168, 147758845274413017688800),
   (-8660146884971646234107400, 156296210775460027239369), (-8499645278795912842933626, 164680861761452126431050),
   (-8330838798884008235429158, 172904605683235824393442), (-8153892383391762543939888, 180959407221281166643908),
   (-7968978923903144763895729, 188837396133749045529412), (-7776279096494954756275514, 196530874944353058653815),
   (-7575981185197071760356680, 204032326462094327668389), (-7368280898020207055124277, 211334421125276415426723),
   (-7153381175730564464599671, 218430024162473863139537), (-6931491993558019659486479, 225312202563362727017970),
   (-6702830156031410158025870, 231974231852541216224889), (-6467619085141292798326303, 238409602659682059625604),
   (-6226088602037077716041908, 244612027079570527199750), (-5978474702471787212648065, 250575444815795897037642),
   (-5725019326213811913168704, 256294029102081160756420), (-5465970120650941674679943, 261762192395456763423087),
   (-5201580198817630566468157, 266974591835709626603847), (-4932107892081909335693088, 271926134465768801364916),
   (-4657816497733580422492166, 276611982207923882942042), (-4378974021720315131089780, 281027556591011733176483),
   (-4095852916783015425288684, 285168543223950979909368), (-3808729816246299567633625, 289030896011252031348762),
   (-3517885263724217209723438, 292610841106382766201190), (-3223603439005291517224766, 295904880599126425117545),
   (-2926171880384719647375559, 298909795933328309168368), (-2625881203715034791689293, 301622651051691449190687),
   (-2323024818449739696495100, 304040795264548200165079), (-2017898640957359972360489, 306161865839804484964594),
   (-1710800805386032748875324, 307983790311525904277139), (-1402031372361139732075146, 309504788504909882340635),
   (-1091892035800611150034260, 310723374275665165878102), (-780685828134366366948174, 311638356962099067838183),
   (-468716824215916316149239, 312248842548493577323765), (-156289844215430828722167, 312554234538633569476425),
   (156289844215430828722167, 312554234538633569476425), (468716824215916316149239, 312248842548493577323765),
   (780685828134366366948174, 311638356962099067838183), (1091892035800611150034260, 310723374275665165878102),
   (1402031372361139732075146, 309504788504909882340635), (1710800805386032748875324, 307983790311525904277139),
   (2017898640957359972360489, 306161865839804484964594), (2323024818449739696495100, 304040795264548200165079),
   (2625881203715034791689293, 301622651051691449190687), (2926171880384719647375559, 298909795933328309168368),
   (3223603439005291517224766, 295904880599126425117545), (3517885263724217209723438, 292610841106382766201190),
   (3808729816246299567633625, 289030896011252031348762), (4095852916783015425288684, 285168543223950979909368),
   (4378974021720315131089780, 281027556591011733176483), (4657816497733580422492166, 276611982207923882942042),
   (4932107892081909335693088, 271926134465768801364916), (5201580198817630566468157, 266974591835709626603847),
   (5465970120650941674679943, 261762192395456763423087), (5725019326213811913168704, 256294029102081160756420),
   (5978474702471787212648065, 250575444815795897037642), (6226088602037077716041908, 244612027079570527199750),
   (6467619085141292798326303, 238409602659682059625604), (6702830156031410158025870, 231974231852541216224889),
   (6931491993558019659486479, 225312202563362727017970), (7153381175730564464599671, 218430024162473863139537),
   (7368280898020207055124277, 211334421125276415426723), (7575981185197071760356680, 204032326462094327668389),
   (7776279096494954756275514, 196530874944353058653815), (7968978923903144763895729, 188837396133749045529412),
   (8153892383391762543939888, 180959407221281166643908), (8330838798884008235429158, 172904605683235824393442),
   (8499645278795912842933626, 164680861761452126431050), (8660146884971646234107400, 156296210775460027239369),
   (8812186793850184155733168, 147758845274413017688800), (8955616449707269866985210, 139077107037187726879541),
   (9090295709825296904671263, 130259478929715422855586), (9216092981453339526669513, 121314576629794974077448),
   (9332885350430795459243337, 112251140231859771172216), (9440558701362559779627747, 103078025748689695857821),
   (9539007829254917428493369, 93804196536944579514182), (9628136542558155272936593, 84438714696689714026208),
   (9707857757637063319308979, 74990732554647115788287), (9778093584869182885537811, 65469484508453227641521),
   (9838775407060570154961002, 55884280038655151572119), (9889843952429917480044187, 46244500634221193510958),
   (9931249370374434596520099, 36559612013263751823425), (9962951347331251491861317, 26839253715534824194396),
   (9984919506395958184001634, 17093926535181052395294), (9997137267734412336782285, 7346344905056717304063)]

/-- The dictionary `weights` of `gauss_legendre_abscissae_and_weights`, quadrature.py:516-966. -/
def glTable : Nat → Option (List (Int × Int))
  | 2 => some gl2
  | 3 => some gl3
  | 4 => some gl4
  | 5 => some gl5
  | 6 => some gl6
  | 7 => some gl7
  | 8 => some gl8
  | 9 => some gl9
  | 10 => some gl10
  | 11 => some gl11
  | 12 => some gl12
  | 13 => some gl13
  | 14 => some gl14
  | 15 => some gl15
  | 16 => some gl16
  | 17 => some gl17
  | 18 => some gl18
  | 19 => some gl19
  | 20 => some gl20
  | 32 => some gl32
  | 64 => some gl64
  | 100 => some gl100
  | _ => none

/-- Entry 'g' for n = 7, quadrature.py:77-85. -/
def gkG7 : List (Int × Int) :=
  [(-9491079123427585245261897, 1294849661688696932706114),
   (-7415311855993944398638648, 2797053914892766679014678),
   (-4058451513773971669066064, 3818300505051189449503698), (0, 4179591836734693877551020),
   (4058451513773971669066064, 3818300505051189449503698), (7415311855993944398638648, 2797053914892766679014678),
   (9491079123427585245261897, 1294849661688696932706114)]

/-- Entry 'k' for n = 7, quadrature.py:86-102. -/
def gkK7 : List (Int × Int) :=
  [(-9914553711208126392068547, 229353220105292249637320), (-9491079123427585245261897, 630920926299785532907007),
   (-8648644233597690727897128, 1047900103222501838398763),
   (-7415311855993944398638648, 1406532597155259187451896),
   (-5860872354676911302941448, 1690047266392679028265834),
   (-4058451513773971669066064, 1903505780647854099132564),
   (-2077849550078984676006894, 2044329400752988924141620), (0, 2094821410847278280129992),
   (2077849550078984676006894, 2044329400752988924141620), (4058451513773971669066064, 1903505780647854099132564),
   (5860872354676911302941448, 1690047266392679028265834), (7415311855993944398638648, 1406532597155259187451896),
   (8648644233597690727897128, 1047900103222501838398763), (9491079123427585245261897, 630920926299785532907007),
   (9914553711208126392068547, 229353220105292249637320)]

/-- Entry 'dup' for n = 7, quadrature.py:103-105. -/
def gkDup7 : List Bool :=
  [false, true, false, true, false, true, false, true, false, true, false, true, false, true, false]

/-- Entry 'g' for n = 10, quadrature.py:108-119. -/
def gkG10 : List (Int × Int) :=
  [(-9739065285171717200779640, 666713443086881375935688),
   (-8650633666889845107320967, 1494513491505805931457763),
   (-6794095682990244062343274, 2190863625159820439955349),
   (-4333953941292471907992659, 2692667193099963550912269),
   (-1488743389816312108848260, 2955242247147528701738930),
   (1488743389816312108848260, 2955242247147528701738930), (4333953941292471907992659, 2692667193099963550912269),
   (6794095682990244062343274, 2190863625159820439955349), (8650633666889845107320967, 1494513491505805931457763),
   (9739065285171717200779640, 666713443086881375935688)]

/-- Entry 'k' for n = 10, quadrature.py:120-142. -/
def gkK10 : List (Int × Int) :=
  [(-9956571630258080807355273, 116946388673718742780644), (-9739065285171717200779640, 325581623079647274788190),
   (-9301574913557082260012072, 547558965743519960313813), (-8650633666889845107320967, 750396748109199527670431),
   (-7808177265864168970637176, 931254545836976055350655),
   (-6794095682990244062343274, 1093871588022976418992106),
   (-5627571346686046833390001, 1234919762620658510779581),
   (-4333953941292471907992659, 1347092173114733259280540),
   (-2943928627014601981311266, 1427759385770600807970943),
   (-1488743389816312108848260, 1477391049013384913748415), (0, 1494455540029169056649365),
   (1488743389816312108848260, 1477391049013384913748415), (2943928627014601981311266, 1427759385770600807970943),
   (4333953941292471907992659, 1347092173114733259280540), (5627571346686046833390001, 1234919762620658510779581),
   (6794095682990244062343274, 1093871588022976418992106), (7808177265864168970637176, 931254545836976055350655),
   (8650633666889845107320967, 750396748109199527670431), (9301574913557082260012072, 547558965743519960313813),
   (9739065285171717200779640, 325581623079647274788190), (9956571630258080807355273, 116946388673718742780644)]

/-- Entry 'dup' for n = 10, quadrature.py:143-146. -/
def gkDup10 : List Bool :=
  [false, true, false, true, false, true, false, true, false, true, false, true, false, true, false, true, false,
   true, false, true, false]

/-- Entry 'g' for n = 15, quadrature.py:149-165. -/
def gkG15 : List (Int × Int) :=
  [(-9879925180204854284895657, 307532419961172683546284), (-9372733924007059043077589, 703660474881081247092674),
   (-8482065834104272162006483, 1071592204671719350118695),
   (-7244177313601700474161861, 1395706779261543144478048),
   (-5709721726085388475372267, 1662692058169939335532009),
   (-3941513470775633698972074, 1861610000155622110268006),
   (-2011940939974345223006283, 1984314853271115764561183), (0, 2025782419255612728806202),
   (2011940939974345223006283, 1984314853271115764561183), (3941513470775633698972074, 1861610000155622110268006),
   (5709721726085388475372267, 1662692058169939335532009), (7244177313601700474161861, 1395706779261543144478048),
   (8482065834104272162006483, 1071592204671719350118695), (9372733924007059043077589, 703660474881081247092674),
   (9879925180204854284895657, 307532419961172683546284)]

/-- Entry 'k' for n = 15, quadrature.py:166-198. -/
def gkK15 : List (Int × Int) :=
  [(-9980022986933970602851728, 53774798729233489877921), (-9879925180204854284895657, 150079473293161225383748),
   (-9677390756791391342573480, 254608473267153201868740), (-9372733924007059043077589, 353463607913758462220379),
   (-8972645323440819008825097, 445897513247648766082273), (-8482065834104272162006483, 534815246909280872653431),
   (-7904185014424659329676493, 620095678006706402851392), (-7244177313601700474161861, 698541213187282587095201),
   (-6509967412974169705337359, 768496807577203788944328), (-5709721726085388475372267, 830805028231330210382892),
   (-4850818636402396806936557, 885644430562117706472754), (-3941513470775633698972074, 931265981708253212254869),
   (-2991800071531688121667800, 966427269836236785051799), (-2011940939974345223006283, 991735987217919593323932),
   (-1011420669187174990270742, 1007698455238755950449467), (0, 1013300070147915490173748),
   (1011420669187174990270742, 1007698455238755950449467), (2011940939974345223006283, 991735987217919593323932),
   (2991800071531688121667800, 966427269836236785051799), (3941513470775633698972074, 931265981708253212254869),
   (4850818636402396806936557, 885644430562117706472754), (5709721726085388475372267, 830805028231330210382892),
   (6509967412974169705337359, 768496807577203788944328), (7244177313601700474161861, 698541213187282587095201),
   (7904185014424659329676493, 620095678006706402851392), (8482065834104272162006483, 534815246909280872653431),
   (8972645323440819008825097, 445897513247648766082273), (9372733924007059043077589, 353463607913758462220379),
   (9677390756791391342573480, 254608473267153201868740), (9879925180204854284895657, 150079473293161225383748),
   (9980022986933970602851728, 53774798729233489877921)]

/-- Entry 'dup' for n = 15, quadrature.py:199-203. -/
def gkDup15 : List Bool :=
  [false, true, false, true, false, true, false, true, false, true, false, true, false, true, false, true, false,
   true, false, true, false, true, false, true, false, true, false, true, false, true, false]

/-- Entry 'g' for n = 20, quadrature.py:206-227. -/
def gkG20 : List (Int × Int) :=
  [(-9931285991850949247861224, 176140071391521183118620), (-9639719272779137912676661, 406014298003869413310400),
   (-9122344282513259058677524, 626720483341090635695065), (-8391169718222188233945291, 832767415767047487247581),
   (-7463319064601507926143051, 1019301198172404350367501),
   (-6360536807265150254528367, 1181945319615184173123774),
   (-5108670019508270980043641, 1316886384491766268984945),
   (-3737060887154195606725482, 1420961093183820513292983),
   (-2277858511416450780804962, 1491729864726037467878287),
   (-765265211334973337546404, 1527533871307258506980843), (765265211334973337546404, 1527533871307258506980843),
   (2277858511416450780804962, 1491729864726037467878287), (3737060887154195606725482, 1420961093183820513292983),
   (5108670019508270980043641, 1316886384491766268984945), (6360536807265150254528367, 1181945319615184173123774),
   (7463319064601507926143051, 1019301198172404350367501), (8391169718222188233945291, 832767415767047487247581),
   (9122344282513259058677524, 626720483341090635695065), (9639719272779137912676661, 406014298003869413310400),
   (9931285991850949247861224, 176140071391521183118620)]

/-- Entry 'k' for n = 20, quadrature.py:228-270. -/
def gkK20 : List (Int × Int) :=
  [(-9988590315882776638383156, 30735837185205315012183), (-9931285991850949247861224, 86002698556429421986618),
   (-9815078774502502591933430, 146261692569712529837880), (-9639719272779137912676661, 203883734612665235980102),
   (-9408226338317547535199827, 258821336049511588345051), (-9122344282513259058677524, 312873067770327989585431),
   (-8782768112522819760774430, 366001697582007980305572), (-8391169718222188233945291, 416688733279736862637883),
   (-7950414288375511983506388, 464348218674976747202319), (-7463319064601507926143051, 509445739237286919327077),
   (-6932376563347513848054907, 551951053482859947448324), (-6360536807265150254528367, 591114008806395723749672),
   (-5751404468197103153429460, 626532375547811680258701), (-5108670019508270980043641, 658345971336184221115636),
   (-4435931752387251031999922, 686486729285216193456234), (-3737060887154195606725482, 710544235534440683057904),
   (-3016278681149130043205554, 730306903327866674951894), (-2277858511416450780804962, 745828754004991889865814),
   (-1526054652409226755052202, 757044976845566746595428), (-765265211334973337546404, 763778676720807367055028),
   (0, 766007119179996564450499), (765265211334973337546404, 763778676720807367055028),
   (1526054652409226755052202, 757044976845566746595428), (2277858511416450780804962, 745828754004991889865814),
   (3016278681149130043205554, 730306903327866674951894), (3737060887154195606725482, 710544235534440683057904),
   (4435931752387251031999922, 686486729285216193456234), (5108670019508270980043641, 658345971336184221115636),
   (5751404468197103153429460, 626532375547811680258701), (6360536807265150254528367, 591114008806395723749672),
   (6932376563347513848054907, 551951053482859947448324), (7463319064601507926143051, 509445739237286919327077),
   (7950414288375511983506388, 464348218674976747202319), (8391169718222188233945291, 416688733279736862637883),
   (8782768112522819760774430, 366001697582007980305572), (9122344282513259058677524, 312873067770327989585431),
   (9408226338317547535199827, 258821336049511588345051), (9639719272779137912676661, 203883734612665235980102),
   (9815078774502502591933430, 146261692569712529837880), (9931285991850949247861224, 86002698556429421986618),
   (9988590315882776638383156, 30735837185205315012183)]

/-- Entry 'dup' for n = 20, quadrature.py:271-276. -/
def gkDup20 : List Bool :=
  [false, true, false, true, false, true, false, true, false, true, false, true, false, true, false, true, false,
   true, false, true, false, true, false, true, false, true, false, true, false, true, false, true, false, true,
   false, true, false, true, false, true, false]

/-- Entry 'g' for n = 25, quadrature.py:279-305. -/
def gkG25 : List (Int × Int) :=
  [(-9955569697904980979087849, 113937985010262879479030), (-9766639214595175114983154, 263549866150321372619018),
   (-9429745712289743394140112, 409391567013063126556235), (-8949919978782753688510420, 549046959758351919259369),
   (-8334426287608340014210211, 680383338123569172071872), (-7592592630373576305772829, 801407003350010180132350),
   (-6735663684734683644851206, 910282619829636498114972),
   (-5776629302412229677236898, 1005359490670506442022069),
   (-4730027314457149605221821, 1085196244742636531160940),
   (-3611723058093878377358217, 1148582591457116483393255),
   (-2438668837209884320451904, 1194557635357847722281781),
   (-1228646926107103963873598, 1222424429903100416889595), (0, 1231760537267154512039029),
   (1228646926107103963873598, 1222424429903100416889595), (2438668837209884320451904, 1194557635357847722281781),
   (3611723058093878377358217, 1148582591457116483393255), (4730027314457149605221821, 1085196244742636531160940),
   (5776629302412229677236898, 1005359490670506442022069), (6735663684734683644851206, 910282619829636498114972),
   (7592592630373576305772829, 801407003350010180132350), (8334426287608340014210211, 680383338123569172071872),
   (8949919978782753688510420, 549046959758351919259369), (9429745712289743394140112, 409391567013063126556235),
   (9766639214595175114983154, 263549866150321372619018), (9955569697904980979087849, 113937985010262879479030)]

/-- Entry 'k' for n = 25, quadrature.py:306-358. -/
def gkK25 : List (Int × Int) :=
  [(-9992621049926098341934575, 19873838923303159265079), (-9955569697904980979087849, 55619321353567137580402),
   (-9880357945340772476373310, 94739733861741516072077), (-9766639214595175114983154, 132362291955716748136564),
   (-9616149864258425124181300, 168478177091282982315167), (-9429745712289743394140112, 204353711458828354565683),
   (-9207471152817015617463461, 240099456069532162200925), (-8949919978782753688510420, 274753175878517378029485),
   (-8658470652932755954489970, 307923001673874888911090), (-8334426287608340014210211, 340021302743293378367488),
   (-7978737979985000594104109, 371162714834155435603306), (-7592592630373576305772829, 400838255040323820748393),
   (-7177664068130843881866541, 428728450201700494768958), (-6735663684734683644851206, 455029130499217889098706),
   (-6268100990103174127881227, 479825371388367139063923), (-5776629302412229677236898, 502776790807156719633253),
   (-5263252843347191825996238, 523628858064074758643667), (-4730027314457149605221821, 542511298885454901445434),
   (-4178853821930377488518144, 559508112204123173082407), (-3611723058093878377358217, 574371163615678328535827),
   (-3030895389311078301674789, 586896800223942079619742), (-2438668837209884320451904, 597203403241740599790993),
   (-1837189394210488920159699, 605394553760458629453603), (-1228646926107103963873598, 611285097170530483058590),
   (-615444830056850788865464, 614711898714253166615441), (0, 615808180678329350787598),
   (615444830056850788865464, 614711898714253166615441), (1228646926107103963873598, 611285097170530483058590),
   (1837189394210488920159699, 605394553760458629453603), (2438668837209884320451904, 597203403241740599790993),
   (3030895389311078301674789, 586896800223942079619742), (3611723058093878377358217, 574371163615678328535827),
   (4178853821930377488518144, 559508112204123173082407), (4730027314457149605221821, 542511298885454901445434),
   (5263252843347191825996238, 523628858064074758643667), (5776629302412229677236898, 502776790807156719633253),
   (6268100990103174127881227, 479825371388367139063923), (6735663684734683644851206, 455029130499217889098706),
   (7177664068130843881866541, 428728450201700494768958), (7592592630373576305772829, 400838255040323820748393),
   (7978737979985000594104109, 371162714834155435603306), (8334426287608340014210211, 340021302743293378367488),
   (8658470652932755954489970, 307923001673874888911090), (8949919978782753688510420, 274753175878517378029485),
   (9207471152817015617463461, 240099456069532162200925), (9429745712289743394140112, 204353711458828354565683),
   (9616149864258425124181300, 168478177091282982315167), (9766639214595175114983154, 132362291955716748136564),
   (9880357945340772476373310, 94739733861741516072077), (9955569697904980979087849, 55619321353567137580402),
   (9992621049926098341934575, 19873838923303159265079)]

/-- Entry 'dup' for n = 25, quadrature.py:359-365. -/
def gkDup25 : List Bool :=
  [false, true, false, true, false, true, false, true, false, true, false, true, false, true, false, true, false,
   true, false, true, false, true, false, true, false, true, false, true, false, true, false, true, false, true,
   false, true, false, true, false, true, false, true, false, true, false, true, false, true, false, true, false]

/-- Entry 'g' for n = 30, quadrature.py:368-399. -/
def gkG30 : List (Int × Int) :=
  [(-9968934840746495402716301, 79681924961666056154659), (-9836681232797472099700326, 184664683110909591423021),
   (-9600218649683075122168710, 287847078833233693497192), (-9262000474292743258793243, 387991925696270495968019),
   (-8825605357920526815431165, 484026728305940529029381), (-8295657623827683974428981, 574931562176190664817217),
   (-7677774321048261949179773, 659742298821804951281285), (-6978504947933157969322924, 737559747377052062682439),
   (-6205261829892428611404776, 807558952294202153546949), (-5366241481420198992641698, 868997872010829798023875),
   (-4470337695380891767806099, 921225222377861287176327), (-3527047255308781134710372, 963687371746442596394686),
   (-2546369261678898464398051, 995934205867952670627803),
   (-1538699136085835469637947, 1017623897484055045964290),
   (-514718425553176958330252, 1028526528935588403412856), (514718425553176958330252, 1028526528935588403412856),
   (1538699136085835469637947, 1017623897484055045964290), (2546369261678898464398051, 995934205867952670627803),
   (3527047255308781134710372, 963687371746442596394686), (4470337695380891767806099, 921225222377861287176327),
   (5366241481420198992641698, 868997872010829798023875), (6205261829892428611404776, 807558952294202153546949),
   (6978504947933157969322924, 737559747377052062682439), (7677774321048261949179773, 659742298821804951281285),
   (8295657623827683974428981, 574931562176190664817217), (8825605357920526815431165, 484026728305940529029381),
   (9262000474292743258793243, 387991925696270495968019), (9600218649683075122168710, 287847078833233693497192),
   (9836681232797472099700326, 184664683110909591423021), (9968934840746495402716301, 79681924961666056154659)]

/-- Entry 'k' for n = 30, quadrature.py:400-462. -/
def gkK30 : List (Int × Int) :=
  [(-9994844100504906375713259, 13890136986770076245516), (-9968934840746495402716301, 38904611270998840512672),
   (-9916309968704045948586284, 66307039159312921733198), (-9836681232797472099700326, 92732796595177634284411),
   (-9731163225011262683746939, 118230152534963417422329), (-9600218649683075122168710, 143697295070458048124514),
   (-9443744447485599794158313, 169208891890532726275723), (-9262000474292743258793243, 194141411939423811734090),
   (-9055733076999077985465226, 218280358216091922971675), (-8825605357920526815431165, 241911620780806013656864),
   (-8572052335460610989586585, 265099548823331016106017), (-8295657623827683974428981, 287540487650412928439788),
   (-7997278358218390830136689, 309072575623877624728843), (-7677774321048261949179773, 329814470574837260318142),
   (-7337900624532268047261711, 349793380280600241374997), (-6978504947933157969322924, 368823646518212292239111),
   (-6600610641266269613700537, 386789456247275929503487), (-6205261829892428611404776, 403745389515359591119953),
   (-5793452358263616917560249, 419698102151642461471475), (-5366241481420198992641698, 434525397013560693168317),
   (-4924804678617785749936931, 448148001331626631923556), (-4470337695380891767806099, 460592382710069881162717),
   (-4004012548303943925354762, 471855465692991539452615), (-3527047255308781134710372, 481858617570871291407795),
   (-3040732022736250773726771, 490554345550297788875282), (-2546369261678898464398051, 497956834270742063578116),
   (-2045251166823098914389577, 504059214027823468408931), (-1538699136085835469637947, 508817958987496064922975),
   (-1028069379667370301470968, 512215478492587721706563), (-514718425553176958330252, 514261285374590259338629),
   (0, 514947294294515675583404), (514718425553176958330252, 514261285374590259338629),
   (1028069379667370301470968, 512215478492587721706563), (1538699136085835469637947, 508817958987496064922975),
   (2045251166823098914389577, 504059214027823468408931), (2546369261678898464398051, 497956834270742063578116),
   (3040732022736250773726771, 490554345550297788875282), (3527047255308781134710372, 481858617570871291407795),
   (4004012548303943925354762, 471855465692991539452615), (4470337695380891767806099, 460592382710069881162717),
   (4924804678617785749936931, 448148001331626631923556), (5366241481420198992641698, 434525397013560693168317),
   (5793452358263616917560249, 419698102151642461471475), (6205261829892428611404776, 403745389515359591119953),
   (6600610641266269613700537, 386789456247275929503487), (6978504947933157969322924, 368823646518212292239111),
   (7337900624532268047261711, 349793380280600241374997), (7677774321048261949179773, 329814470574837260318142),
   (7997278358218390830136689, 309072575623877624728843), (8295657623827683974428981, 287540487650412928439788),
   (8572052335460610989586585, 265099548823331016106017), (8825605357920526815431165, 241911620780806013656864),
   (9055733076999077985465226, 218280358216091922971675), (9262000474292743258793243, 194141411939423811734090),
   (9443744447485599794158313, 169208891890532726275723), (9600218649683075122168710, 143697295070458048124514),
   (9731163225011262683746939, 118230152534963417422329), (9836681232797472099700326, 92732796595177634284411),
   (9916309968704045948586284, 66307039159312921733198), (9968934840746495402716301, 38904611270998840512672),
   (9994844100504906375713259, 13890136986770076245516)]

/-- Entry 'dup' for n = 30, quadrature.py:463-470. -/
def gkDup30 : List Bool :=
  [false, true, false, true, false, true, false, true, false, true, false, true, false, true, false, true, false,
   true, false, true, false, true, false, true, false, true, false, true, false, true, false, true, false, true,
   false, true, false, true, false, true, false, true, false, true, false, true, false, true, false, true, false,
   true, false, true, false, true, false, true, false, true, false]

/-- The dictionary `weights` (entries 'g', 'k', 'dup') of `gauss_kronrod_abscissae_and_weights`, quadrature.py:75-472. -/
def gkTable : Nat → Option (List (Int × Int) × List (Int × Int) × List Bool)
  | 7 => some (gkG7, gkK7, gkDup7)
  | 10 => some (gkG10, gkK10, gkDup10)
  | 15 => some (gkG15, gkK15, gkDup15)
  | 20 => some (gkG20, gkK20, gkDup20)
  | 25 => some (gkG25, gkK25, gkDup25)
  | 30 => some (gkG30, gkK30, gkDup30)
  | _ => none

end Geotecha.Quad
