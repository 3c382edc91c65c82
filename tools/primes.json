{
"names": {
"p25519": "57896044618658097711785492504343953926634992332820282019728792003956564819949",
"l25519": "7237005577332262213973186563042994240857116359379907606001950938285454250989",
"p256p": "115792089210356248762697446949407573530086143415290314195533631308867097853951",
"p256n": "115792089210356248762697446949407573529996955224135760342422259061068512044369",
"p384p": "39402006196394479212279040100143613805079739270465446667948293404245721771496870329047266088258938001861606973112319",
"p384n": "39402006196394479212279040100143613805079739270465446667946905279627659399113263569398956308152294913554433653942643",
"p521p": "6864797660130609714981900799081393217269435300143305409394463459185543183397656052122559640661454554977296311391480858037121987999716643812574028291115057151",
"p521n": "6864797660130609714981900799081393217269435300143305409394463459185543183397655394245057746333217197532963996371363321113864768612440380340372808892707005449"
},
"cert": {
"7237005577332262213973186563042994240857116359379907606001950938285454250989": [
[
276602624281642239937218680557139826668747,
1,
2
]
],
"276602624281642239937218680557139826668747": [
[
19757330305831588566944191468367130476339,
1,
2
]
],
"19757330305831588566944191468367130476339": [
[
172054593956031949258510691,
1,
2
]
],
"172054593956031949258510691": [
[
4434155615661930479,
1,
2
]
],
"4434155615661930479": [
[
1257559732178653,
1,
2
]
],
"1257559732178653": [
[
7,
1,
2
],
[
23,
1,
2
],
[
531581,
1,
2
]
],
"531581": [
[
3797,
1,
2
]
],
"3797": [
[
73,
1,
2
]
],
"115792089210356248762697446949407573530086143415290314195533631308867097853951": [
[
835945042244614951780389953367877943453916927241,
1,
2
]
],
"835945042244614951780389953367877943453916927241": [
[
774023187263532362759620327192479577272145303,
1,
2
]
],
"774023187263532362759620327192479577272145303": [
[
34282281433,
1,
2
],
[
11290956913871,
1,
2
]
],
"34282281433": [
[
204061199,
1,
2
]
],
"204061199": [
[
11,
1,
3
],
[
23,
1,
2
],
[
107,
1,
2
]
],
"11290956913871": [
[
66417393611,
1,
2
]
],
"66417393611": [
[
53,
1,
2
],
[
173,
1,
2
],
[
197,
1,
2
]
],
"115792089210356248762697446949407573529996955224135760342422259061068512044369": [
[
3407,
1,
2
],
[
17449,
1,
2
],
[
38189,
1,
2
],
[
187019741,
1,
2
],
[
622491383,
1,
2
],
[
1002328039319,
1,
2
]
],
"3407": [
[
131,
1,
2
]
],
"17449": [
[
727,
1,
2
]
],
"38189": [
[
9547,
1,
2
]
],
"9547": [
[
3,
1,
2
],
[
37,
1,
2
]
],
"187019741": [
[
9350987,
1,
2
]
],
"9350987": [
[
17,
1,
2
],
[
229,
1,
2
]
],
"622491383": [
[
311245691,
1,
2
]
],
"311245691": [
[
7,
1,
2
],
[
17,
1,
2
],
[
29,
2,
2
]
],
"1002328039319": [
[
3969899,
1,
2
]
],
"3969899": [
[
104471,
1,
2
]
],
"104471": [
[
337,
1,
2
]
],
"39402006196394479212279040100143613805079739270465446667948293404245721771496870329047266088258938001861606973112319": [
[
19173790298027098165721053155794528970226934547887232785722672956982046098136719667167519737147526097,
1,
2
]
],
"19173790298027098165721053155794528970226934547887232785722672956982046098136719667167519737147526097": [
[
8389,
1,
2
],
[
38557,
1,
2
],
[
312289,
1,
2
],
[
1357291859799823621,
1,
2
],
[
529709925838459440593,
1,
2
]
],
"8389": [
[
233,
1,
2
]
],
"38557": [
[
2,
2,
2
],
[
3,
4,
2
]
],
"312289": [
[
3253,
1,
2
]
],
"3253": [
[
271,
1,
2
]
],
"1357291859799823621": [
[
53448597593,
1,
2
]
],
"53448597593": [
[
513928823,
1,
2
]
],
"513928823": [
[
59,
1,
2
],
[
599,
1,
2
]
],
"529709925838459440593": [
[
7,
1,
2
],
[
181,
1,
2
],
[
105957871,
1,
2
]
],
"105957871": [
[
5,
1,
2
],
[
19,
1,
2
],
[
211,
1,
2
]
],
"39402006196394479212279040100143613805079739270465446667946905279627659399113263569398956308152294913554433653942643": [
[
3055465788140352002733946906144561090641249606160407884365391979704929268480326390471,
1,
2
]
],
"3055465788140352002733946906144561090641249606160407884365391979704929268480326390471": [
[
1059392654943455286185473617842338478315215895509773412096307,
1,
2
]
],
"1059392654943455286185473617842338478315215895509773412096307": [
[
251,
1,
2
],
[
248431,
1,
2
],
[
8463023,
1,
2
],
[
55942463741690639,
1,
2
]
],
"248431": [
[
3,
1,
2
],
[
5,
1,
2
],
[
7,
2,
2
]
],
"8463023": [
[
37447,
1,
2
]
],
"37447": [
[
79,
2,
2
]
],
"55942463741690639": [
[
37344768852931,
1,
2
]
],
"37344768852931": [
[
9863677,
1,
2
]
],
"9863677": [
[
2,
2,
2
],
[
3,
2,
5
],
[
311,
1,
2
]
],
"57896044618658097711785492504343953926634992332820282019728792003956564819949": [
[
74058212732561358302231226437062788676166966415465897661863160754340907,
1,
2
]
],
"74058212732561358302231226437062788676166966415465897661863160754340907": [
[
75445702479781427272750846543864801,
1,
2
],
[
31757755568855353,
1,
2
]
],
"75445702479781427272750846543864801": [
[
1919519569386763,
1,
2
],
[
72106336199,
1,
2
]
],
"1919519569386763": [
[
8574133,
1,
2
],
[
127,
1,
2
]
],
"8574133": [
[
991,
1,
2
],
[
103,
1,
2
]
],
"72106336199": [
[
2773320623,
1,
2
]
],
"2773320623": [
[
569003,
1,
2
]
],
"569003": [
[
419,
1,
2
],
[
97,
1,
2
]
],
"31757755568855353": [
[
430751,
1,
2
],
[
4153,
1,
2
]
],
"430751": [
[
1723,
1,
2
]
],
"4153": [
[
173,
1,
2
]
],
"6864797660130609714981900799081393217269435300143305409394463459185543183397655394245057746333217197532963996371363321113864768612440380340372808892707005449": [
[
3615194794881930010216942559103847593050265703173292383701371712350878926821661243755933835426896058418509759880171943,
1,
2
]
],
"3615194794881930010216942559103847593050265703173292383701371712350878926821661243755933835426896058418509759880171943": [
[
3636410625392624440351547907325502812950802686368714273274221490761556277859337865760708490235892541081304511,
1,
2
]
],
"26396455358464290861024406425856767383597184798714873393172974232410680875129956702733507": [
[
10023023599256205321123690127633837456977801840434481431580826738177466410606433,
1,
2
]
],
"10023023599256205321123690127633837456977801840434481431580826738177466410606433": [
[
24093806728981262791162716652965955425427408270275195748992371966772755794727,
1,
2
]
],
"103970754670018769219954328160078459989676474322309227466726277971713": [
[
1127827528743888283741704367946629547703737558813298171739,
1,
2
]
],
"1127827528743888283741704367946629547703737558813298171739": [
[
5016185007503485546367482466146698527071,
1,
2
]
],
"5016185007503485546367482466146698527071": [
[
18947019644256368446067973007,
1,
2
]
],
"4773751485073399117884367": [
[
1060588069333957,
1,
2
]
],
"1060588069333957": [
[
759229,
1,
2
],
[
123973,
1,
2
]
],
"759229": [
[
419,
1,
2
],
[
151,
1,
2
]
],
"123973": [
[
10331,
1,
2
]
],
"10331": [
[
1033,
1,
2
]
],
"6864797660130609714981900799081393217269435300143305409394463459185543183397656052122559640661454554977296311391480858037121987999716643812574028291115057151": [
[
145295143558111,
1,
3
],
[
65427463921,
1,
3
],
[
2400573761,
1,
3
],
[
308761441,
1,
3
],
[
34110701,
1,
3
],
[
7623851,
1,
3
],
[
5746001,
1,
3
],
[
858001,
1,
3
],
[
409891,
1,
3
],
[
61681,
1,
3
]
],
"145295143558111": [
[
2534364967,
1,
3
]
],
"2534364967": [
[
8620289,
1,
2
]
],
"8620289": [
[
223,
1,
2
],
[
151,
1,
2
]
],
"65427463921": [
[
2995763,
1,
3
]
],
"2995763": [
[
397,
1,
2
],
[
11,
1,
2
]
],
"2400573761": [
[
1663,
1,
3
],
[
347,
1,
3
]
],
"308761441": [
[
49481,
1,
3
]
],
"49481": [
[
1237,
1,
2
]
],
"34110701": [
[
1381,
1,
3
],
[
19,
1,
3
]
],
"7623851": [
[
317,
1,
3
],
[
37,
1,
3
]
],
"5746001": [
[
17,
1,
3
],
[
13,
2,
3
]
],
"858001": [
[
13,
1,
2
],
[
11,
1,
3
],
[
5,
3,
3
]
],
"409891": [
[
1051,
1,
3
]
],
"61681": [
[
257,
1,
3
]
]
},
"ec": {
"3636410625392624440351547907325502812950802686368714273274221490761556277859337865760708490235892541081304511": [
"594875526994080380822727677244743660235710586308652673895023855280072180497943010052256986318088168704341976",
"3624677032875454539113781583204850177460947535878652410750382746104782534199902705180306982710925141442867941",
"1323874474191326365478765199645907659089260241246310015311380810930582697603653636920470974189893898537766682",
"1931330347305586557475907469783642500922287852357017256407984856162193692516627341617890567519464593913841345",
"85078080280461688791953699432203101329602050252415760415303637991055214905752024042387402916476881727"
],
"85078080280461688791953699432203101329602050252415760415303637991055214905752024042387402916476881727": [
"35848406004432893401462669977043844557329389216160394967320068901074803307058061896723520127777590270",
"18446619400044123749435347596046522913858350911328056473193120441519932408379296208752185407123252177",
"79672605983898370230189295161155792279394663787053038893849053485499642360904368982680129883637007573",
"83468135287470835355031149921074455190083918132214667944178947292678235742127325967764644189613156791",
"719872067355939322180934123892229143542768119917212289942415688934391953959091449323468121531371"
],
"719872067355939322180934123892229143542768119917212289942415688934391953959091449323468121531371": [
"0",
"521477417638812320837578935568691846358837786214004576845629568163942465637439311865533258196519",
"9476633220756104707433536392032130348161216965316696403978313542119142066673635282577742053650",
"309835194832069019650901839032308097435554543005793872374364013166183070540278096894473068831758",
"26396455358464290861024406425856767383597184798714873393172974232410680875129956702733507"
],
"24093806728981262791162716652965955425427408270275195748992371966772755794727": [
"22000238630804557953373107032133070512843406872639044917885650523364089520894",
"9959400062631214796617464002595425950655317974699956531096358849793126634424",
"2034335139254652980962163402680649905990212103760198680699614914964158052052",
"4143427422010837057125606935727673184596042897807630073353445142415231749306",
"510808317693802213177635614250465472899117194331543116861687380940875343"
],
"510808317693802213177635614250465472899117194331543116861687380940875343": [
"140561324864110340982753228978981295425513203527358225513960016394260604",
"126878380762477612679929138425072890235981616852752251497055378842457868",
"118582764940241944128332337620516138817490513963629908508103813731380472",
"18362157088648800458156115206200834364432448632703452799705533964933010",
"103970754670018769219954328160078459989676474322309227466726277971713"
],
"18947019644256368446067973007": [
"0",
"16637088554073281880245268729",
"1474798997062713576925725538",
"13936634990964580052775733638",
"4773751485073399117884367"
]
}
}