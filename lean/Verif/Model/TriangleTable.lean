import Mathlib.Data.Int.Notation

/-!
The table `IntegrationTypeTriangle::quadratureData`, `nuto/mechanics/integrationtypes/IntegrationTypeTriangle.cpp:3-651`.
Every entry `Vector3d(x, y, weight)` is the decimal number as written: `x` and `y` in units of `10^-19`, the weight in
units of `10^-20`.  (The rounding of a decimal literal to a `double` is not modelled.)
Generated from the source by a script; one definition per `// order` block.
-/
namespace NuTo.SimplexRule

/-- `IntegrationTypeTriangle.cpp:4-5`, order 1 -/
def triangle0 : List (ℤ × ℤ × ℤ) := [
  (3333333333333334800, 3333333333333334800, 50000000000000000000)]

/-- `IntegrationTypeTriangle.cpp:6-9`, order 2 -/
def triangle1 : List (ℤ × ℤ × ℤ) := [
  (1666666666666665200, 1666666666666665200, 16666666666666674000),
  (1666666666666665200, 6666666666666665200, 16666666666666674000),
  (6666666666666665200, 1666666666666665200, 16666666666666674000)]

/-- `IntegrationTypeTriangle.cpp:10-14`, order 3 -/
def triangle2 : List (ℤ × ℤ × ℤ) := [
  (3333333333333334800, 3333333333333334800, (-28125000000000000000)),
  (2000000000000000100, 2000000000000000100, 26041666666666674000),
  (2000000000000000100, 5999999999999999800, 26041666666666674000),
  (5999999999999999800, 2000000000000000100, 26041666666666674000)]

/-- `IntegrationTypeTriangle.cpp:15-21`, order 4 -/
def triangle3 : List (ℤ × ℤ × ℤ) := [
  (4459484909159650000, 4459484909159650000, 11169079483900550000),
  (4459484909159650000, 1081030181680700000, 11169079483900550000),
  (1081030181680700000, 4459484909159650000, 11169079483900550000),
  (915762135097710210, 915762135097710210, 5497587182766099800),
  (915762135097710210, 8168475729804589600, 5497587182766099800),
  (8168475729804589600, 915762135097710210, 5497587182766099800)]

/-- `IntegrationTypeTriangle.cpp:22-29`, order 5 -/
def triangle4 : List (ℤ × ℤ × ℤ) := [
  (3333333333333334800, 3333333333333334800, 11250000000000000000),
  (4701420641051150000, 4701420641051150000, 6619707639425299900),
  (4701420641051150000, 597158717897700030, 6619707639425299900),
  (597158717897700030, 4701420641051150000, 6619707639425299900),
  (1012865073234560100, 1012865073234560100, 6296959027241350000),
  (1012865073234560100, 7974269853530869800, 6296959027241350000),
  (7974269853530869800, 1012865073234560100, 6296959027241350000)]

/-- `IntegrationTypeTriangle.cpp:30-42`, order 6 -/
def triangle5 : List (ℤ × ℤ × ℤ) := [
  (2492867451709099800, 2492867451709099800, 5839313786318949700),
  (2492867451709099800, 5014265096581790300, 5839313786318949700),
  (5014265096581790300, 2492867451709099800, 5839313786318949700),
  (630890144915020050, 630890144915020050, 2542245318510350000),
  (630890144915020050, 8738219710169959900, 2542245318510350000),
  (8738219710169959900, 630890144915020050, 2542245318510350000),
  (3103524510337840000, 6365024991213990000, 4142553780918700100),
  (6365024991213990000, 531450498448169940, 4142553780918700100),
  (531450498448169940, 3103524510337840000, 4142553780918700100),
  (3103524510337840000, 531450498448169940, 4142553780918700100),
  (6365024991213990000, 3103524510337840000, 4142553780918700100),
  (531450498448169940, 6365024991213990000, 4142553780918700100)]

/-- `IntegrationTypeTriangle.cpp:43-56`, order 7 -/
def triangle6 : List (ℤ × ℤ × ℤ) := [
  (3333333333333334800, 3333333333333334800, (-7478502223384099500)),
  (2603459660790400400, 2603459660790400400, 8780762871660399700),
  (2603459660790400400, 4793080678419199800, 8780762871660399700),
  (4793080678419199800, 2603459660790400400, 8780762871660399700),
  (651301029022159920, 651301029022159920, 2667361780441900000),
  (651301029022159920, 8697397941955680200, 2667361780441900000),
  (8697397941955680200, 651301029022159920, 2667361780441900000),
  (3128654960048740100, 6384441885698100000, 3855688044512849800),
  (6384441885698100000, 486903154253159890, 3855688044512849800),
  (486903154253159890, 3128654960048740100, 3855688044512849800),
  (3128654960048740100, 486903154253159890, 3855688044512849800),
  (6384441885698100000, 3128654960048740100, 3855688044512849800),
  (486903154253159890, 6384441885698100000, 3855688044512849800)]

/-- `IntegrationTypeTriangle.cpp:57-73`, order 8 -/
def triangle7 : List (ℤ × ℤ × ℤ) := [
  (3333333333333334800, 3333333333333334800, 7215780383889350300),
  (4592925882927230100, 4592925882927230100, 4754581713364249700),
  (4592925882927230100, 814148234145540270, 4754581713364249700),
  (814148234145540270, 4592925882927230100, 4754581713364249700),
  (1705693077517599900, 1705693077517599900, 5160868526735899700),
  (1705693077517599900, 6588613844964800200, 5160868526735899700),
  (6588613844964800200, 1705693077517599900, 5160868526735899700),
  (505472283170310120, 505472283170310120, 1622924881159900100),
  (505472283170310120, 8989055433659379800, 1622924881159875200),
  (8989055433659379800, 505472283170310120, 1622924881159900100),
  (2631128296346380000, 7284923929554040200, 1361515708721750000),
  (7284923929554040200, 83947774099579764, 1361515708721750000),
  (83947774099579764, 2631128296346380000, 1361515708721750000),
  (2631128296346380000, 83947774099579764, 1361515708721750000),
  (7284923929554040200, 2631128296346380000, 1361515708721750000),
  (83947774099579764, 7284923929554040200, 1361515708721750000)]

/-- `IntegrationTypeTriangle.cpp:74-93`, order 9 -/
def triangle8 : List (ℤ × ℤ × ℤ) := [
  (3333333333333334800, 3333333333333334800, 4856789814139950100),
  (4896825191987380100, 4896825191987380100, 1566735011356950100),
  (4896825191987380100, 206349616025249820, 1566735011356950100),
  (206349616025249820, 4896825191987380100, 1566735011356950100),
  (4370895914929370200, 4370895914929370200, 3891377050238700000),
  (4370895914929370200, 1258208170141270100, 3891377050238700000),
  (1258208170141270100, 4370895914929370200, 3891377050238700000),
  (1882035356190330200, 1882035356190330200, 3982386946360499900),
  (1882035356190330200, 6235929287619350600, 3982386946360499900),
  (6235929287619350600, 1882035356190330200, 3982386946360499900),
  (447295133944530240, 447295133944530240, 1278883782934900000),
  (447295133944530240, 9105409732110949500, 1278883782934900000),
  (9105409732110949500, 447295133944530240, 1278883782934900000),
  (2219629891607660100, 7411985987844980100, 2164176968864450100),
  (7411985987844980100, 368384120547359810, 2164176968864450100),
  (368384120547359810, 2219629891607660100, 2164176968864450100),
  (2219629891607660100, 368384120547359810, 2164176968864450100),
  (7411985987844980100, 2219629891607660100, 2164176968864450100),
  (368384120547359810, 7411985987844980100, 2164176968864450100)]

/-- `IntegrationTypeTriangle.cpp:94-119`, order 10 -/
def triangle9 : List (ℤ × ℤ × ℤ) := [
  (3333333333333334800, 3333333333333334800, 4540899519137699800),
  (4855776333836570000, 4855776333836570000, 1836297887823349800),
  (4855776333836570000, 288447332326849940, 1836297887823349800),
  (288447332326849940, 4855776333836570000, 1836297887823349800),
  (1094815754850370100, 1094815754850370100, 2266052971776400000),
  (1094815754850370100, 7810368490299259800, 2266052971776400000),
  (7810368490299259800, 1094815754850370100, 2266052971776400000),
  (3079398387641210100, 5503529418209990300, 3637895842271000200),
  (5503529418209990300, 1417072194148800100, 3637895842271000200),
  (1417072194148800100, 3079398387641210100, 3637895842271000200),
  (3079398387641210100, 1417072194148800100, 3637895842271000200),
  (5503529418209990300, 3079398387641210100, 3637895842271000200),
  (1417072194148800100, 5503529418209990300, 3637895842271000200),
  (2466725606399030000, 7283239045974110300, 1416362126552850000),
  (7283239045974110300, 250035347626860190, 1416362126552850000),
  (250035347626860190, 2466725606399030000, 1416362126552850000),
  (2466725606399030000, 250035347626860190, 1416362126552850000),
  (7283239045974110300, 2466725606399030000, 1416362126552850000),
  (250035347626860190, 7283239045974110300, 1416362126552850000),
  (668032510122000270, 9236559335874999800, 471083348186650000),
  (9236559335874999800, 95408154002989964, 471083348186650000),
  (95408154002989964, 668032510122000270, 471083348186650000),
  (668032510122000270, 95408154002989964, 471083348186650000),
  (9236559335874999800, 668032510122000270, 471083348186650000),
  (95408154002989964, 9236559335874999800, 471083348186650000)]

/-- `IntegrationTypeTriangle.cpp:120-147`, order 11 -/
def triangle10 : List (ℤ × ℤ × ℤ) := [
  (5346110482707580000, 5346110482707580000, 46350316448050000),
  (5346110482707580000, (-692220965415170090), 46350316448050000),
  ((-692220965415170090), 5346110482707580000, 46350316448050000),
  (3989693029658549800, 3989693029658549800, 3857476745740649700),
  (3989693029658549800, 2020613940682899900, 3857476745740649700),
  (2020613940682899900, 3989693029658549800, 3857476745740649700),
  (2033099004312820000, 2033099004312820000, 2966148869038700100),
  (2033099004312820000, 5933801991374350000, 2966148869038700100),
  (5933801991374350000, 2033099004312820000, 2966148869038700100),
  (1193509122825809900, 1193509122825809900, 1809227025170900100),
  (1193509122825809900, 7612981754348370200, 1809227025170900100),
  (7612981754348370200, 1193509122825809900, 1809227025170900100),
  (323649481112759930, 323649481112759930, 682986550133899990),
  (323649481112759930, 9352701037774480100, 682986550133899990),
  (9352701037774480100, 323649481112759930, 682986550133899990),
  (3566206482612930300, 5932012134282129700, 2616855598110200100),
  (5932012134282129700, 501781383104950020, 2616855598110200100),
  (501781383104950020, 3566206482612930300, 2616855598110200100),
  (3566206482612930300, 501781383104950020, 2616855598110200100),
  (5932012134282129700, 3566206482612930300, 2616855598110200100),
  (501781383104950020, 5932012134282129700, 2616855598110200100),
  (1714889803040420300, 8074890031597920000, 1035382981957050000),
  (8074890031597920000, 210220165361659770, 1035382981957050000),
  (210220165361659770, 1714889803040420300, 1035382981957050000),
  (1714889803040420300, 210220165361659770, 1035382981957050000),
  (8074890031597920000, 1714889803040420300, 1035382981957050000),
  (210220165361659770, 8074890031597920000, 1035382981957050000)]

/-- `IntegrationTypeTriangle.cpp:148-181`, order 12 -/
def triangle11 : List (ℤ × ℤ × ℤ) := [
  (4882173897738050200, 4882173897738050200, 1286553322022750000),
  (4882173897738050200, 235652204523900120, 1286553322022750000),
  (235652204523900120, 4882173897738050200, 1286553322022750000),
  (4397243922944599800, 4397243922944599800, 2184627226901900100),
  (4397243922944599800, 1205512154110789900, 2184627226901900100),
  (1205512154110789900, 4397243922944599800, 2184627226901900100),
  (2712103850121160300, 2712103850121160300, 3142911210894250300),
  (2712103850121160300, 4575792299757680000, 3142911210894250300),
  (4575792299757680000, 2712103850121160300, 3142911210894250300),
  (1275761455415859700, 1275761455415859700, 1739805646535450000),
  (1275761455415859700, 7448477089168279400, 1739805646535450000),
  (7448477089168279400, 1275761455415859700, 1739805646535450000),
  (213173504532099820, 213173504532099820, 308313052577950010),
  (213173504532099820, 9573652990935790400, 308313052577950010),
  (9573652990935790400, 213173504532099820, 308313052577950010),
  (2757132696855140200, 6089432357797880400, 2018577888319050100),
  (6089432357797880400, 1153434945346980000, 2018577888319050100),
  (1153434945346980000, 2757132696855140200, 2018577888319050100),
  (2757132696855140200, 1153434945346980000, 2018577888319050100),
  (6089432357797880400, 2757132696855140200, 2018577888319050100),
  (1153434945346980000, 6089432357797880400, 2018577888319050100),
  (2813255809899399800, 6958360867878030700, 1117838660115150000),
  (6958360867878030700, 228383322222570070, 1117838660115150000),
  (228383322222570070, 2813255809899399800, 1117838660115150000),
  (2813255809899399800, 228383322222570070, 1117838660115150000),
  (6958360867878030700, 2813255809899399800, 1117838660115150000),
  (228383322222570070, 6958360867878030700, 1117838660115150000),
  (1162519159075969800, 8580140335440730200, 865811555432949990),
  (8580140335440730200, 257340505483300010, 865811555432949990),
  (257340505483300010, 1162519159075969800, 865811555432949990),
  (1162519159075969800, 257340505483300010, 865811555432949990),
  (8580140335440730200, 1162519159075969800, 865811555432949990),
  (257340505483300010, 8580140335440730200, 865811555432949990)]

/-- `IntegrationTypeTriangle.cpp:182-219`, order 13 -/
def triangle12 : List (ℤ × ℤ × ℤ) := [
  (3333333333333334800, 3333333333333334800, 2626046170040100000),
  (4950481849397049800, 4950481849397049800, 564007260466499980),
  (4950481849397049800, 99036301205909782, 564007260466499980),
  (99036301205909782, 4950481849397049800, 564007260466499980),
  (4687166351095740100, 4687166351095740100, 1571175918122700100),
  (4687166351095740100, 625667297808519820, 1571175918122700100),
  (625667297808519820, 4687166351095740100, 1571175918122700100),
  (4145213368012770100, 4145213368012770100, 2353625125209700100),
  (4145213368012770100, 1709573263974469800, 2353625125209700100),
  (1709573263974469800, 4145213368012770100, 2353625125209700100),
  (2293995720428310100, 2293995720428310100, 2368179326817750100),
  (2293995720428310100, 5412008559143369800, 2368179326817750100),
  (5412008559143369800, 2293995720428310100, 2368179326817750100),
  (1144244951963300200, 1144244951963300200, 1558376452289700000),
  (1144244951963300200, 7711510096073399500, 1558376452289700000),
  (7711510096073399500, 1144244951963300200, 1558376452289700000),
  (248113913634590010, 248113913634590010, 398788573253699980),
  (248113913634590010, 9503772172730820000, 398788573253699980),
  (9503772172730820000, 248113913634590010, 398788573253699980),
  (2687949970587609800, 6363511745616600200, 1842420136436600000),
  (6363511745616600200, 948538283795790080, 1842420136436600000),
  (948538283795790080, 2687949970587609800, 1842420136436600000),
  (2687949970587609800, 948538283795790080, 1842420136436600000),
  (6363511745616600200, 2687949970587609800, 1842420136436600000),
  (948538283795790080, 6363511745616600200, 1842420136436600000),
  (2917300667342880300, 6901691599869049800, 870073165191100060),
  (6901691599869049800, 181007732788069920, 870073165191100060),
  (181007732788069920, 2917300667342880300, 870073165191100060),
  (2917300667342880300, 181007732788069920, 870073165191100060),
  (6901691599869049800, 2917300667342880300, 870073165191100060),
  (181007732788069920, 6901691599869049800, 870073165191100060),
  (1263573854916690300, 8514095378342410000, 776089341952249970),
  (8514095378342410000, 222330766740900240, 776089341952249970),
  (222330766740900240, 1263573854916690300, 776089341952249970),
  (1263573854916690300, 222330766740900240, 776089341952249970),
  (8514095378342410000, 1263573854916690300, 776089341952249970),
  (222330766740900240, 8514095378342410000, 776089341952249970)]

/-- `IntegrationTypeTriangle.cpp:220-262`, order 14 -/
def triangle13 : List (ℤ × ℤ × ℤ) := [
  (4889639103621790100, 4889639103621790100, 1094179068471450000),
  (4889639103621790100, 220721792756429780, 1094179068471450000),
  (220721792756429780, 4889639103621790100, 1094179068471450000),
  (4176447193404540000, 4176447193404540000, 1639417677206250100),
  (4176447193404540000, 1647105613190920100, 1639417677206250100),
  (1647105613190920100, 4176447193404540000, 1639417677206250100),
  (2734775283088389800, 2734775283088389800, 2588705225364600100),
  (2734775283088389800, 4530449433823229800, 2588705225364600100),
  (4530449433823229800, 2734775283088389800, 2588705225364600100),
  (1772055324125430000, 1772055324125430000, 2108129436849650100),
  (1772055324125430000, 6455889351749130000, 2108129436849650100),
  (6455889351749130000, 1772055324125430000, 2108129436849650100),
  (617998830908729760, 617998830908729760, 721684983488850040),
  (617998830908729760, 8764002338182550500, 721684983488850040),
  (8764002338182550500, 617998830908729760, 721684983488850040),
  (193909612487009890, 193909612487009890, 246170180120000020),
  (193909612487009890, 9612180775025980200, 246170180120000020),
  (9612180775025980200, 193909612487009890, 246170180120000020),
  (1722666878213560100, 7706085547749960100, 1233287660628200000),
  (7706085547749960100, 571247574036479740, 1233287660628200000),
  (571247574036479740, 1722666878213560100, 1233287660628200000),
  (1722666878213560100, 571247574036479740, 1233287660628200000),
  (7706085547749960100, 1722666878213560100, 1233287660628200000),
  (571247574036479740, 7706085547749960100, 1233287660628200000),
  (3368614597963449600, 5702222908466829700, 1928575539353050200),
  (5702222908466829700, 929162493569720140, 1928575539353050200),
  (929162493569720140, 3368614597963449600, 1928575539353050200),
  (3368614597963449600, 929162493569720140, 1928575539353050200),
  (5702222908466829700, 3368614597963449600, 1928575539353050200),
  (929162493569720140, 5702222908466829700, 1928575539353050200),
  (2983728821362580100, 6869801678080880200, 721815405676700000),
  (6869801678080880200, 146469500556539730, 721815405676700000),
  (146469500556539730, 2983728821362580100, 721815405676700000),
  (2983728821362580100, 146469500556539730, 721815405676700000),
  (6869801678080880200, 2983728821362580100, 721815405676700000),
  (146469500556539730, 6869801678080880200, 721815405676700000),
  (1189744976969570000, 8797571713701710600, 250511441925049990),
  (8797571713701710600, 12683309328719861, 250511441925049990),
  (12683309328719861, 1189744976969570000, 250511441925049990),
  (1189744976969570000, 12683309328719861, 250511441925049990),
  (8797571713701710600, 1189744976969570000, 250511441925049990),
  (12683309328719861, 8797571713701710600, 250511441925049990)]

/-- `IntegrationTypeTriangle.cpp:263-311`, order 15 -/
def triangle14 : List (ℤ × ℤ × ℤ) := [
  (5069729168582429700, 5069729168582429700, 95843782142449995),
  (5069729168582429700, (-139458337164859450), 95843782142449995),
  ((-139458337164859450), 5069729168582429700, 95843782142449995),
  (4314063542830229900, 4314063542830229900, 2212451363557249900),
  (4314063542830229900, 1371872914339550300, 2212451363557249900),
  (1371872914339550300, 4314063542830229900, 2212451363557249900),
  (2776936448471439800, 2776936448471439800, 2559327435942599900),
  (2776936448471439800, 4446127103057109800, 2559327435942599900),
  (4446127103057109800, 2776936448471439800, 2559327435942599900),
  (1264648910412540200, 1264648910412540200, 1184386793534399900),
  (1264648910412540200, 7470702179174919500, 1184386793534399900),
  (7470702179174919500, 1264648910412540200, 1184386793534399900),
  (708083859746859720, 708083859746859720, 664488784501050030),
  (708083859746859720, 8583832280506280600, 664488784501050030),
  (8583832280506280600, 708083859746859720, 664488784501050030),
  (189651702410730260, 189651702410730260, 237445830409600000),
  (189651702410730260, 9620696595178530600, 237445830409600000),
  (9620696595178530600, 189651702410730260, 237445830409600000),
  (2613113711400870100, 6049544668932910200, 1927503629979649900),
  (6049544668932910200, 1337341619666210200, 1927503629979649900),
  (1337341619666210200, 2613113711400870100, 1927503629979649900),
  (2613113711400870100, 1337341619666210200, 1927503629979649900),
  (6049544668932910200, 2613113711400870100, 1927503629979649900),
  (1337341619666210200, 6049544668932910200, 1927503629979649900),
  (3880467670902689700, 5755865555128140100, 1360790716031200000),
  (5755865555128140100, 363666773969170130, 1360790716031200000),
  (363666773969170130, 3880467670902689700, 1360790716031200000),
  (3880467670902689700, 363666773969170130, 1360790716031200000),
  (5755865555128140100, 3880467670902689700, 1360790716031200000),
  (363666773969170130, 5755865555128140100, 1360790716031200000),
  (2857122200499160300, 7244626630766549700, 109103868339850000),
  (7244626630766549700, (-101748831265709990), 109103868339850000),
  ((-101748831265709990), 2857122200499160300, 109103868339850000),
  (2857122200499160300, (-101748831265709990), 109103868339850000),
  (7244626630766549700, 2857122200499160300, 109103868339850000),
  ((-101748831265709990), 7244626630766549700, 109103868339850000),
  (2155996640722839800, 7475564660518380100, 1075265992386549900),
  (7475564660518380100, 368438698758780100, 1075265992386549900),
  (368438698758780100, 2155996640722839800, 1075265992386549900),
  (2155996640722839800, 368438698758780100, 1075265992386549900),
  (7475564660518380100, 2155996640722839800, 1075265992386549900),
  (368438698758780100, 7475564660518380100, 1075265992386549900),
  (1035756165763859800, 8839645740924160200, 383697131552450000),
  (8839645740924160200, 124598093311990010, 383697131552450000),
  (124598093311990010, 1035756165763859800, 383697131552450000),
  (1035756165763859800, 124598093311990010, 383697131552450000),
  (8839645740924160200, 1035756165763859800, 383697131552450000),
  (124598093311990010, 8839645740924160200, 383697131552450000)]

/-- `IntegrationTypeTriangle.cpp:312-364`, order 16 -/
def triangle15 : List (ℤ × ℤ × ℤ) := [
  (3333333333333334800, 3333333333333334800, 2343784871382100000),
  (4973805419484380000, 4973805419484380000, 320293928929249980),
  (4973805419484380000, 52389161031229925, 320293928929249980),
  (52389161031229925, 4973805419484380000, 320293928929249980),
  (4134694385493520300, 4134694385493520300, 2085514836969349800),
  (4134694385493520300, 1730611229012949900, 2085514836969349800),
  (1730611229012949900, 4134694385493520300, 2085514836969349800),
  (4704585990669910000, 4704585990669910000, 1344574212503200000),
  (4704585990669910000, 590828018660169980, 1344574212503200000),
  (590828018660169980, 4704585990669910000, 1344574212503200000),
  (2405537499695210000, 2405537499695210000, 2106626138082499900),
  (2405537499695210000, 5188925000609580000, 2106626138082499900),
  (5188925000609580000, 2405537499695210000, 2106626138082499900),
  (1479657942225730000, 1479657942225730000, 1500013342138649900),
  (1479657942225730000, 7040684115548540000, 1500013342138649900),
  (7040684115548540000, 1479657942225730000, 1500013342138649900),
  (754651876574740090, 754651876574740090, 710004946251199980),
  (754651876574740090, 8490696246850519800, 710004946251199980),
  (8490696246850519800, 754651876574740090, 710004946251199980),
  (165964026230249750, 165964026230249750, 179123117563650000),
  (165964026230249750, 9668071947539500500, 179123117563650000),
  (9668071947539500500, 165964026230249750, 179123117563650000),
  (2965555965798870000, 5998687111748609600, 1638657373031349900),
  (5998687111748609600, 1035756922452519800, 1638657373031349900),
  (1035756922452519800, 2965555965798870000, 1638657373031349900),
  (2965555965798870000, 1035756922452519800, 1638657373031349900),
  (5998687111748609600, 2965555965798870000, 1638657373031349900),
  (1035756922452519800, 5998687111748609600, 1638657373031349900),
  (3377230634030790000, 6421935249415049500, 764915312422049990),
  (6421935249415049500, 200834116554159950, 764915312422049990),
  (200834116554159950, 3377230634030790000, 764915312422049990),
  (3377230634030790000, 200834116554159950, 764915312422049990),
  (6421935249415049500, 3377230634030790000, 764915312422049990),
  (200834116554159950, 6421935249415049500, 764915312422049990),
  (2047482816428120000, 7995927209713269400, 119312209641950000),
  (7995927209713269400, (-43410026141389446), 119312209641950000),
  ((-43410026141389446), 2047482816428120000, 119312209641950000),
  (2047482816428120000, (-43410026141389446), 119312209641950000),
  (7995927209713269400, 2047482816428120000, 119312209641950000),
  ((-43410026141389446), 7995927209713269400, 119312209641950000),
  (1893584921306230000, 7686997214013680000, 954239637794949970),
  (7686997214013680000, 419417864680100010, 954239637794949970),
  (419417864680100010, 1893584921306230000, 954239637794949970),
  (1893584921306230000, 419417864680100010, 954239637794949970),
  (7686997214013680000, 1893584921306230000, 954239637794949970),
  (419417864680100010, 7686997214013680000, 954239637794949970),
  (852836156826570210, 9003990640866610400, 342502727327100020),
  (9003990640866610400, 143173202306809970, 342502727327100020),
  (143173202306809970, 852836156826570210, 342502727327100020),
  (852836156826570210, 143173202306809970, 342502727327100020),
  (9003990640866610400, 852836156826570210, 342502727327100020),
  (143173202306809970, 9003990640866610400, 342502727327100020)]

/-- `IntegrationTypeTriangle.cpp:365-426`, order 17 -/
def triangle16 : List (ℤ × ℤ × ℤ) := [
  (3333333333333334800, 3333333333333334800, 1671859964540150000),
  (4971705405567740100, 4971705405567740100, 254670772025350010),
  (4971705405567740100, 56589188864519802, 254670772025350010),
  (56589188864519802, 4971705405567740100, 254670772025350010),
  (4821763226246250100, 4821763226246250100, 733543226381899990),
  (4821763226246250100, 356473547507509810, 733543226381899990),
  (356473547507509810, 4821763226246250100, 733543226381899990),
  (4502399690207820000, 4502399690207820000, 1217543917683600000),
  (4502399690207820000, 995200619584369890, 1217543917683600000),
  (995200619584369890, 4502399690207820000, 1217543917683600000),
  (4002662393773970300, 4002662393773970300, 1555377543448449900),
  (4002662393773970300, 1994675212452060000, 1555377543448449900),
  (1994675212452060000, 4002662393773970300, 1555377543448449900),
  (2521412679709529900, 2521412679709529900, 1562855560931000100),
  (2521412679709529900, 4957174640580950300, 1562855560931000100),
  (4957174640580950300, 2521412679709529900, 1562855560931000100),
  (1620470046584610000, 1620470046584610000, 1240782716983250000),
  (1620470046584610000, 6759059906830770000, 1240782716983250000),
  (6759059906830770000, 1620470046584610000, 1240782716983250000),
  (758758822607459860, 758758822607459860, 702803653527850000),
  (758758822607459860, 8482482354785079200, 702803653527850000),
  (8482482354785079200, 758758822607459860, 702803653527850000),
  (156547269678219970, 156547269678219970, 159733808688949990),
  (156547269678219970, 9686905460643560100, 159733808688949990),
  (9686905460643560100, 156547269678219970, 159733808688949990),
  (3343198673636580400, 6554932038094230000, 405982765949650020),
  (6554932038094230000, 101869288269190170, 405982765949650020),
  (101869288269190170, 3343198673636580400, 405982765949650020),
  (3343198673636580400, 101869288269190170, 405982765949650020),
  (6554932038094230000, 3343198673636580400, 405982765949650020),
  (101869288269190170, 6554932038094230000, 405982765949650020),
  (2922215377969439900, 5723375905320200500, 1340287114158150000),
  (5723375905320200500, 1354408716710360200, 1340287114158150000),
  (1354408716710360200, 2922215377969439900, 1340287114158150000),
  (2922215377969439900, 1354408716710360200, 1340287114158150000),
  (5723375905320200500, 2922215377969439900, 1340287114158150000),
  (1354408716710360200, 5723375905320200500, 1340287114158150000),
  (3195748854231900100, 6260011902862280300, 922999660541099980),
  (6260011902862280300, 544239242905830150, 922999660541099980),
  (544239242905830150, 3195748854231900100, 922999660541099980),
  (3195748854231900100, 544239242905830150, 922999660541099980),
  (6260011902862280300, 3195748854231900100, 922999660541099980),
  (544239242905830150, 6260011902862280300, 922999660541099980),
  (1907042241922919900, 7964272149740709800, 423843426716400020),
  (7964272149740709800, 128685608336370220, 423843426716400020),
  (128685608336370220, 1907042241922919900, 423843426716400020),
  (1907042241922919900, 128685608336370220, 423843426716400020),
  (7964272149740709800, 1907042241922919900, 423843426716400020),
  (128685608336370220, 7964272149740709800, 423843426716400020),
  (1804832116487459800, 7523510059377289700, 914639838501249930),
  (7523510059377289700, 671657824135240000, 914639838501249930),
  (671657824135240000, 1804832116487459800, 914639838501249930),
  (1804832116487459800, 671657824135240000, 914639838501249930),
  (7523510059377289700, 1804832116487459800, 914639838501249930),
  (671657824135240000, 7523510059377289700, 914639838501249930),
  (807113136795640230, 9046255040956079400, 333281600208250010),
  (9046255040956079400, 146631822248279860, 333281600208250010),
  (146631822248279860, 807113136795640230, 333281600208250010),
  (807113136795640230, 146631822248279860, 333281600208250010),
  (9046255040956079400, 807113136795640230, 333281600208250010),
  (146631822248279860, 9046255040956079400, 333281600208250010)]

/-- `IntegrationTypeTriangle.cpp:427-497`, order 18 -/
def triangle17 : List (ℤ × ℤ × ℤ) := [
  (3333333333333334800, 3333333333333334800, 1540496996882350000),
  (4933448086309210100, 4933448086309210100, 453621833970199990),
  (4933448086309210100, 133103827381569890, 453621833970199990),
  (133103827381569890, 4933448086309210100, 453621833970199990),
  (4692105942419569900, 4692105942419569900, 938065846979700000),
  (4692105942419569900, 615788115160860180, 938065846979700000),
  (615788115160860180, 4692105942419569900, 938065846979700000),
  (4362813958870059800, 4362813958870059800, 972054899273849980),
  (4362813958870059800, 1274372082259889700, 972054899273849980),
  (1274372082259889700, 4362813958870059800, 972054899273849980),
  (3948461706734159900, 3948461706734159900, 1387697430540500000),
  (3948461706734159900, 2103076586531679700, 1387697430540500000),
  (2103076586531679700, 3948461706734159900, 1387697430540500000),
  (2497945688031569800, 2497945688031569800, 1612811267572850100),
  (2497945688031569800, 5004108623936860400, 1612811267572850100),
  (5004108623936860400, 2497945688031569800, 1612811267572850100),
  (1614321937438429900, 1614321937438429900, 1253701630846100000),
  (1614321937438429900, 6771356125123150200, 1253701630846100000),
  (6771356125123150200, 1614321937438429900, 1253701630846100000),
  (765982274853709840, 765982274853709840, 763596398591599980),
  (765982274853709840, 8468035450292570300, 763596398591599980),
  (8468035450292570300, 765982274853709840, 763596398591599980),
  (242524393534500060, 242524393534500060, 339696101148150020),
  (242524393534500060, 9514951212930999900, 339696101148150020),
  (9514951212930999900, 242524393534500060, 339696101148150020),
  (431463672169650200, 431463672169650200, (-111154936496000000)),
  (431463672169650200, 9137072655660709600, (-111154936496000000)),
  (9137072655660709600, 431463672169650200, (-111154936496000000)),
  (3589114949409439900, 6326579688566360500, 316595703820299990),
  (6326579688566360500, 84305362024200137, 316595703820299990),
  (84305362024200137, 3589114949409439900, 316595703820299990),
  (3589114949409439900, 84305362024200137, 316595703820299990),
  (6326579688566360500, 3589114949409439900, 316595703820299990),
  (84305362024200137, 6326579688566360500, 316595703820299990),
  (2944024767519569700, 5744109715108549600, 1362876902456900000),
  (5744109715108549600, 1311865517371880200, 1362876902456900000),
  (1311865517371880200, 2944024767519569700, 1362876902456900000),
  (2944024767519569700, 1311865517371880200, 1362876902456900000),
  (5744109715108549600, 2944024767519569700, 1362876902456900000),
  (1311865517371880200, 5744109715108549600, 1362876902456900000),
  (3250178016418140400, 6247790467925120600, 883839282473249980),
  (6247790467925120600, 502031515656750080, 883839282473249980),
  (502031515656750080, 3250178016418140400, 883839282473249980),
  (3250178016418140400, 502031515656750080, 883839282473249980),
  (6247790467925120600, 3250178016418140400, 883839282473249980),
  (502031515656750080, 6247790467925120600, 883839282473249980),
  (1847375596660459900, 7489331765230370400, 918974231903500060),
  (7489331765230370400, 663292638109159730, 918974231903500060),
  (663292638109159730, 1847375596660459900, 918974231903500060),
  (1847375596660459900, 663292638109159730, 918974231903500060),
  (7489331765230370400, 1847375596660459900, 918974231903500060),
  (663292638109159730, 7489331765230370400, 918974231903500060),
  (2187968000133210200, 7692070054204429600, 405236640409599970),
  (7692070054204429600, 119961945662360180, 405236640409599970),
  (119961945662360180, 2187968000133210200, 405236640409599970),
  (2187968000133210200, 119961945662360180, 405236640409599970),
  (7692070054204429600, 2187968000133210200, 405236640409599970),
  (119961945662360180, 7692070054204429600, 405236640409599970),
  (1011795971364080100, 8839623022734670600, 381706453536250020),
  (8839623022734670600, 148581005901249900, 381706453536250020),
  (148581005901249900, 1011795971364080100, 381706453536250020),
  (1011795971364080100, 148581005901249900, 381706453536250020),
  (8839623022734670600, 1011795971364080100, 381706453536250020),
  (148581005901249900, 8839623022734670600, 381706453536250020),
  (208747552825859770, 10143472600053629000, 2309383039700000),
  (10143472600053629000, (-352220152879489930), 2309383039700000),
  ((-352220152879489930), 208747552825859770, 2309383039700000),
  (208747552825859770, (-352220152879489930), 2309383039700000),
  (10143472600053629000, 208747552825859770, 2309383039700000),
  ((-352220152879489930), 10143472600053629000, 2309383039700000)]

/-- `IntegrationTypeTriangle.cpp:498-571`, order 19 -/
def triangle18 : List (ℤ × ℤ × ℤ) := [
  (3333333333333334800, 3333333333333334800, 1645316569445949900),
  (4896099870730060100, 4896099870730060100, 516536594563599990),
  (4896099870730060100, 207800258539870280, 516536594563599990),
  (207800258539870280, 4896099870730060100, 516536594563599990),
  (4545368926978929900, 4545368926978929900, 1119362363150800000),
  (4545368926978929900, 909262146042150170, 1119362363150800000),
  (909262146042150170, 4545368926978929900, 1119362363150800000),
  (4014166806494310300, 4014166806494310300, 1513306293473399900),
  (4014166806494310300, 1971666387011379900, 1513306293473399900),
  (1971666387011379900, 4014166806494310300, 1513306293473399900),
  (2555516544030980200, 2555516544030980200, 1524548390109900000),
  (2555516544030980200, 4888966911938050200, 1524548390109900000),
  (4888966911938050200, 2555516544030980200, 1524548390109900000),
  (1770779421521300200, 1770779421521300200, 1207960637082050100),
  (1770779421521300200, 6458441156957409600, 1207960637082050100),
  (6458441156957409600, 1770779421521300200, 1207960637082050100),
  (1100610532279520100, 1100610532279520100, 802540179340049950),
  (1100610532279520100, 7798778935440959800, 802540179340049950),
  (7798778935440959800, 1100610532279520100, 802540179340049950),
  (555286242518400200, 555286242518400200, 404229013089200000),
  (555286242518400200, 8889427514963210700, 404229013089200000),
  (8889427514963210700, 555286242518400200, 404229013089200000),
  (126218637772290140, 126218637772290140, 103968101374250000),
  (126218637772290140, 9747562724455429700, 103968101374250000),
  (9747562724455429700, 126218637772290140, 103968101374250000),
  (3957547873569430300, 6006337947946449600, 194243845249050000),
  (6006337947946449600, 36114178484120130, 194243845249050000),
  (36114178484120130, 3957547873569430300, 194243845249050000),
  (3957547873569430300, 36114178484120130, 194243845249050000),
  (6006337947946449600, 3957547873569430300, 194243845249050000),
  (36114178484120130, 6006337947946429600, 194243845249050000),
  (3079299838804360200, 5576032615887840400, 1278708030601100100),
  (5576032615887840400, 1344667545307800000, 1278708030601100100),
  (1344667545307800000, 3079299838804360200, 1278708030601100100),
  (3079299838804360200, 1344667545307800000, 1278708030601100100),
  (5576032615887840400, 3079299838804360200, 1278708030601100100),
  (1344667545307800000, 5576032615887840400, 1278708030601100100),
  (2645669484065200100, 7209870258173649600, 444045178666899970),
  (7209870258173649600, 144460257761149790, 444045178666899970),
  (144460257761149790, 2645669484065200100, 444045178666899970),
  (2645669484065200100, 144460257761149790, 444045178666899970),
  (7209870258173649600, 2645669484065200100, 444045178666899970),
  (144460257761149790, 7209870258173649600, 444045178666899970),
  (3585393522059510100, 5945270689558710400, 806227338086550060),
  (5945270689558710400, 469335788381780030, 806227338086550060),
  (469335788381780030, 3585393522059510100, 806227338086550060),
  (3585393522059510100, 469335788381780030, 806227338086550060),
  (5945270689558710400, 3585393522059510100, 806227338086550060),
  (469335788381780030, 5945270689558710400, 806227338086550060),
  (1578074059685949900, 8393314736808390500, 124597090874550000),
  (8393314736808390500, 28611203505670146, 124597090874550000),
  (28611203505670146, 1578074059685949900, 124597090874550000),
  (1578074059685949900, 28611203505670146, 124597090874550000),
  (8393314736808390500, 1578074059685949900, 124597090874550000),
  (28611203505670146, 8393314736808390500, 124597090874550000),
  (750505969759109880, 7010879789261730300, 912142005947550080),
  (7010879789261730300, 2238614240979159800, 912142005947550080),
  (2238614240979159800, 750505969759109880, 912142005947550080),
  (750505969759109880, 2238614240979159800, 912142005947550080),
  (7010879789261730300, 750505969759109880, 912142005947550080),
  (2238614240979159800, 7010879789261730300, 912142005947550080),
  (1424216011133829800, 8229313240698570300, 512928186809949970),
  (8229313240698570300, 346470748167599930, 512928186809949970),
  (346470748167599930, 1424216011133829800, 512928186809949970),
  (1424216011133829800, 346470748167599930, 512928186809949970),
  (8229313240698570300, 1424216011133829800, 512928186809949970),
  (346470748167599930, 8229313240698570300, 512928186809949970),
  (654946280829379890, 9243442526207840100, 189996442765100000),
  (9243442526207840100, 101611192962779980, 189996442765100000),
  (101611192962779980, 654946280829379890, 189996442765100000),
  (654946280829379890, 101611192962779980, 189996442765100000),
  (9243442526207840100, 654946280829379890, 189996442765100000),
  (101611192962779980, 9243442526207840100, 189996442765100000)]

/-- `IntegrationTypeTriangle.cpp:572-651`, order 20 -/
def triangle19 : List (ℤ × ℤ × ℤ) := [
  (3333333333333334800, 3333333333333334800, 1652852777081199900),
  (5009504643522000300, 5009504643522000300, 43350959283149998),
  (5009504643522000300, (-19009287043999512), 43350959283149998),
  ((-19009287043999512), 5009504643522000300, 43350959283149998),
  (4882129579347285200, 4882129579347285200, 583002635822400020),
  (4882129579347285200, 235740841305430160, 583002635822400020),
  (235740841305430160, 4882129579347285200, 583002635822400020),
  (4551366869502824800, 4551366869502824800, 1143846817821050000),
  (4551366869502824800, 897266360994349870, 1143846817821050000),
  (897266360994349870, 4551366869502824800, 1143846817821050000),
  (4019962593182895300, 4019962593182895300, 1522449133696899900),
  (4019962593182895300, 1960074813634210000, 1522449133696899900),
  (1960074813634210000, 4019962593182895300, 1522449133696899900),
  (2558929097594214700, 2558929097594214700, 1531244586267750000),
  (2558929097594214700, 4882141804811570000, 1531244586267750000),
  (4882141804811570000, 2558929097594214700, 1531244586267750000),
  (1764882559951059800, 1764882559951059800, 1218402883840000000),
  (1764882559951059800, 6470234880097880400, 1218402883840000000),
  (6470234880097880400, 1764882559951059800, 1218402883840000000),
  (1041708553367585200, 1041708553367585200, 799871601601200020),
  (1041708553367585200, 7916582893264829700, 799871601601200020),
  (7916582893264829700, 1041708553367585200, 799871601601200020),
  (530689638409300170, 530689638409300170, 384915090780100010),
  (530689638409300170, 8938620723181400800, 384915090780100010),
  (8938620723181400800, 530689638409300170, 384915090780100010),
  (416187151960289990, 416187151960289990, (-31603024874399997)),
  (416187151960289990, 9167625696079420000, (-31603024874399997)),
  (9167625696079420000, 416187151960289990, (-31603024874399997)),
  (115819214068220160, 115819214068220160, 87556715059649995),
  (115819214068220160, 9768361571863559700, 87556715059649995),
  (9768361571863559700, 115819214068220160, 87556715059649995),
  (3448557702290009900, 6064026461061600100, 823291959478800010),
  (6064026461061600100, 487415836648389940, 823291959478800010),
  (487415836648389940, 3448557702290009900, 823291959478800010),
  (3448557702290009900, 487415836648389940, 823291959478800010),
  (6064026461061600100, 3448557702290009900, 823291959478800010),
  (487415836648389940, 6064026461061600100, 823291959478800010),
  (3778432695948539800, 6158426144565409800, 241951677024250000),
  (6158426144565409800, 63141159486049814, 241951677024250000),
  (63141159486049814, 3778432695948539800, 241951677024250000),
  (3778432695948539800, 63141159486049814, 241951677024250000),
  (6158426144565409800, 3778432695948539800, 241951677024250000),
  (63141159486049814, 6158426144565409800, 241951677024250000),
  (3066354790623570000, 5590480003902950100, 1290245326732500000),
  (5590480003902950100, 1343165205473480000, 1290245326732500000),
  (1343165205473480000, 3066354790623570000, 1290245326732500000),
  (3066354790623570000, 1343165205473480000, 1290245326732500000),
  (5590480003902950100, 3066354790623570000, 1290245326732500000),
  (1343165205473480000, 5590480003902950100, 1290245326732500000),
  (2494193627747420300, 7366067432628660100, 423554552722050020),
  (7366067432628660100, 139738939623920140, 423554552722050020),
  (139738939623920140, 2494193627747420300, 423554552722050020),
  (2494193627747420300, 139738939623920140, 423554552722050020),
  (7366067432628660100, 2494193627747420300, 423554552722050020),
  (139738939623920140, 7366067432628660100, 423554552722050020),
  (2127757248028019900, 7116751422874340000, 917745705313999930),
  (7116751422874340000, 755491329097640050, 917745705313999930),
  (755491329097640050, 2127757248028019900, 917745705313999930),
  (2127757248028019900, 755491329097640050, 917745705313999930),
  (7116751422874340000, 2127757248028019900, 917745705313999930),
  (755491329097640050, 7116751422874340000, 917745705313999930),
  (1469654360532389700, 8614027171549869500, 35220233895399999),
  (8614027171549869500, (-83681532082270360), 35220233895399999),
  ((-83681532082270360), 1469654360532389700, 35220233895399999),
  (1469654360532389700, (-83681532082270360), 35220233895399999),
  (8614027171549869500, 1469654360532389700, 35220233895399999),
  ((-83681532082270360), 8614027171549869500, 35220233895399999),
  (1377269788289229900, 8355869579123629300, 505634246373099990),
  (8355869579123629300, 266860632587139770, 505634246373099990),
  (266860632587139770, 1377269788289229900, 505634246373099990),
  (1377269788289229900, 266860632587139770, 505634246373099990),
  (8355869579123629300, 1377269788289229900, 505634246373099990),
  (266860632587139770, 8355869579123629300, 505634246373099990),
  (596961091490070260, 9297561715568529700, 178695469297500000),
  (9297561715568529700, 105477192941410000, 178695469297500000),
  (105477192941410000, 596961091490070260, 178695469297500000),
  (596961091490070260, 105477192941410000, 178695469297500000),
  (9297561715568529700, 596961091490070260, 178695469297500000),
  (105477192941410000, 9297561715568529700, 178695469297500000)]

/-- `quadratureData` -/
def triangleTable : List (List (ℤ × ℤ × ℤ)) := [triangle0, triangle1, triangle2, triangle3, triangle4, triangle5, triangle6, triangle7, triangle8, triangle9, triangle10, triangle11, triangle12, triangle13, triangle14, triangle15, triangle16, triangle17, triangle18, triangle19]

end NuTo.SimplexRule
