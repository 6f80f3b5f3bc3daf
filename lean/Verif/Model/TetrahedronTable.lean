import Mathlib.Data.Int.Notation

/-!
The table `IntegrationTypeTetrahedron::quadratureData`,
`nuto/mechanics/integrationtypes/IntegrationTypeTetrahedron.cpp:3-3081`.
Every entry `Vector4d(x, y, z, weight)` is the decimal number as written: the coordinates in units of `10^-19`, the
weight in units of `10^-26`.  (The rounding of a decimal literal to a `double` is not modelled.)
Generated from the source by a script; one definition per `// order` block.
-/
namespace NuTo.SimplexRule

/-- `IntegrationTypeTetrahedron.cpp:4-5`, commented `order 1` -/
def tetrahedron0 : List (ℤ × ℤ × ℤ × ℤ) := [
  (2500000000000000000, 2500000000000000000, 2500000000000000000, 16666666666666663000000000)]

/-- `IntegrationTypeTetrahedron.cpp:6-10`, commented `order 2` -/
def tetrahedron1 : List (ℤ × ℤ × ℤ × ℤ) := [
  (1381966011250104800, 1381966011250104800, 1381966011250104800, 4166666666666662300000000),
  (5854101966249685200, 1381966011250104800, 1381966011250104800, 4166666666666662300000000),
  (1381966011250104800, 5854101966249685200, 1381966011250104800, 4166666666666662300000000),
  (1381966011250104800, 1381966011250104800, 5854101966249685200, 4166666666666662300000000)]

/-- `IntegrationTypeTetrahedron.cpp:11-16`, commented `order 3` -/
def tetrahedron2 : List (ℤ × ℤ × ℤ × ℤ) := [
  (2500000000000000000, 2500000000000000000, 2500000000000000000, (-13333333333333339000000000)),
  (1666666666666665200, 1666666666666665200, 1666666666666665200, 7499999999999999700000000),
  (1666666666666665200, 1666666666666665200, 5000000000000000000, 7499999999999999700000000),
  (1666666666666665200, 5000000000000000000, 1666666666666665200, 7499999999999999700000000),
  (5000000000000000000, 1666666666666665200, 1666666666666665200, 7499999999999999700000000)]

/-- `IntegrationTypeTetrahedron.cpp:17-28`, commented `order 4` -/
def tetrahedron3 : List (ℤ × ℤ × ℤ × ℤ) := [
  (2500000000000000000, 2500000000000000000, 2500000000000000000, (-1315555555555550000000000)),
  (714285714285715080, 714285714285715080, 714285714285715080, 762222222222224980000000),
  (714285714285715080, 714285714285715080, 7857142857142854800, 762222222222224980000000),
  (714285714285715080, 7857142857142854800, 714285714285715080, 762222222222224980000000),
  (7857142857142854800, 714285714285715080, 714285714285715080, 762222222222224980000000),
  (3994035761667990000, 3994035761667990000, 1005964238332010000, 2488888888888887400000000),
  (3994035761667990000, 1005964238332010000, 3994035761667990000, 2488888888888887400000000),
  (1005964238332010000, 3994035761667990000, 3994035761667990000, 2488888888888887400000000),
  (3994035761667990000, 1005964238332010000, 1005964238332010000, 2488888888888887400000000),
  (1005964238332010000, 3994035761667990000, 1005964238332010000, 2488888888888887400000000),
  (1005964238332010000, 1005964238332010000, 3994035761667990000, 2488888888888887400000000)]

/-- `IntegrationTypeTetrahedron.cpp:29-43`, commented `order 5` -/
def tetrahedron4 : List (ℤ × ℤ × ℤ × ℤ) := [
  (927352503108910260, 927352503108910260, 927352503108910260, 1224884051939362600000000),
  (7217942490673264800, 927352503108910260, 927352503108910260, 1224884051939362600000000),
  (927352503108910260, 7217942490673264800, 927352503108910260, 1224884051939362600000000),
  (927352503108910260, 927352503108910260, 7217942490673264800, 1224884051939362600000000),
  (3108859192633005000, 3108859192633005000, 3108859192633005000, 1878132095300262500000000),
  (673422422100979910, 3108859192633005000, 3108859192633005000, 1878132095300262500000000),
  (3108859192633005000, 673422422100979910, 3108859192633005000, 1878132095300262500000000),
  (3108859192633005000, 3108859192633005000, 673422422100979910, 1878132095300262500000000),
  (4544962958743504800, 4544962958743504800, 455037041256495240, 709100346284687480000000),
  (4544962958743504800, 455037041256495240, 4544962958743504800, 709100346284687480000000),
  (455037041256495240, 4544962958743504800, 4544962958743504800, 709100346284687480000000),
  (4544962958743504800, 455037041256495240, 455037041256495240, 709100346284687480000000),
  (455037041256495240, 4544962958743504800, 455037041256495240, 709100346284687480000000),
  (455037041256495240, 455037041256495240, 4544962958743504800, 709100346284687480000000)]

/-- `IntegrationTypeTetrahedron.cpp:44-68`, commented `order 6` -/
def tetrahedron5 : List (ℤ × ℤ × ℤ × ℤ) := [
  (2146028712591520100, 2146028712591520100, 2146028712591520100, 665379170969462520000000),
  (3561913862225439800, 2146028712591520100, 2146028712591520100, 665379170969462520000000),
  (2146028712591520100, 3561913862225439800, 2146028712591520100, 665379170969462520000000),
  (2146028712591520100, 2146028712591520100, 3561913862225439800, 665379170969462520000000),
  (406739585346114760, 406739585346114760, 406739585346114760, 167953517588675010000000),
  (8779781243961659600, 406739585346114760, 406739585346114760, 167953517588675010000000),
  (406739585346114760, 8779781243961659600, 406739585346114760, 167953517588675010000000),
  (406739585346114760, 406739585346114760, 8779781243961659600, 167953517588675010000000),
  (3223378901422755400, 3223378901422755400, 3223378901422755400, 922619692394249960000000),
  (329863295731734900, 3223378901422755400, 3223378901422755400, 922619692394249960000000),
  (3223378901422755400, 329863295731734900, 3223378901422755400, 922619692394249960000000),
  (3223378901422755400, 3223378901422755400, 329863295731734900, 922619692394249960000000),
  (636610018750174980, 636610018750174980, 2696723314583160400, 803571428571425020000000),
  (636610018750174980, 2696723314583160400, 636610018750174980, 803571428571425020000000),
  (636610018750174980, 636610018750174980, 6030056647916489700, 803571428571425020000000),
  (636610018750174980, 6030056647916489700, 636610018750174980, 803571428571425020000000),
  (636610018750174980, 2696723314583160400, 6030056647916489700, 803571428571425020000000),
  (636610018750174980, 6030056647916489700, 2696723314583160400, 803571428571425020000000),
  (2696723314583160400, 636610018750174980, 636610018750174980, 803571428571425020000000),
  (2696723314583160400, 636610018750174980, 6030056647916489700, 803571428571425020000000),
  (2696723314583160400, 6030056647916489700, 636610018750174980, 803571428571425020000000),
  (6030056647916489700, 636610018750174980, 2696723314583160400, 803571428571425020000000),
  (6030056647916489700, 636610018750174980, 636610018750174980, 803571428571425020000000),
  (6030056647916489700, 2696723314583160400, 636610018750174980, 803571428571425020000000)]

/-- `IntegrationTypeTetrahedron.cpp:69-100`, commented `order 7` -/
def tetrahedron6 : List (ℤ × ℤ × ℤ × ℤ) := [
  (5000000000000000000, 5000000000000000000, 0, 97001763668425002000000),
  (5000000000000000000, 0, 5000000000000000000, 97001763668425002000000),
  (0, 5000000000000000000, 5000000000000000000, 97001763668425002000000),
  (0, 0, 5000000000000000000, 97001763668425002000000),
  (0, 5000000000000000000, 0, 97001763668425002000000),
  (5000000000000000000, 0, 0, 97001763668425002000000),
  (2500000000000000000, 2500000000000000000, 2500000000000000000, 1826422346610887300000000),
  (782131923303179820, 782131923303179820, 782131923303179820, 1059994152441362500000000),
  (782131923303179820, 782131923303179820, 7653604230090460500, 1059994152441362500000000),
  (782131923303179820, 7653604230090460500, 782131923303179820, 1059994152441362500000000),
  (7653604230090460500, 782131923303179820, 782131923303179820, 1059994152441362500000000),
  (1218432166639050200, 1218432166639050200, 1218432166639050200, (-6251774011433187900000000)),
  (1218432166639050200, 1218432166639050200, 6344703500082844400, (-6251774011433187900000000)),
  (1218432166639050200, 6344703500082844400, 1218432166639050200, (-6251774011433187900000000)),
  (6344703500082844400, 1218432166639050200, 1218432166639050200, (-6251774011433187900000000)),
  (3325391644464205100, 3325391644464205100, 3325391644464205100, 489142526307350010000000),
  (3325391644464205100, 3325391644464205100, 23825066607380263, 489142526307350010000000),
  (3325391644464205100, 23825066607380263, 3325391644464205100, 489142526307350010000000),
  (23825066607380263, 3325391644464205100, 3325391644464205100, 489142526307350010000000),
  (999999999999999780, 999999999999999780, 2000000000000000100, 2755731922398587500000000),
  (999999999999999780, 2000000000000000100, 999999999999999780, 2755731922398587500000000),
  (999999999999999780, 999999999999999780, 5999999999999999800, 2755731922398587500000000),
  (999999999999999780, 5999999999999999800, 999999999999999780, 2755731922398587500000000),
  (999999999999999780, 2000000000000000100, 5999999999999999800, 2755731922398587500000000),
  (999999999999999780, 5999999999999999800, 2000000000000000100, 2755731922398587500000000),
  (2000000000000000100, 999999999999999780, 999999999999999780, 2755731922398587500000000),
  (2000000000000000100, 999999999999999780, 5999999999999999800, 2755731922398587500000000),
  (2000000000000000100, 5999999999999999800, 999999999999999780, 2755731922398587500000000),
  (5999999999999999800, 999999999999999780, 2000000000000000100, 2755731922398587500000000),
  (5999999999999999800, 999999999999999780, 999999999999999780, 2755731922398587500000000),
  (5999999999999999800, 2000000000000000100, 999999999999999780, 2755731922398587500000000)]

/-- `IntegrationTypeTetrahedron.cpp:101-144`, commented `order 7` -/
def tetrahedron7 : List (ℤ × ℤ × ℤ × ℤ) := [
  (2500000000000000000, 2500000000000000000, 2500000000000000000, (-2050018865863987400000000)),
  (2068299316106729800, 2068299316106729800, 2068299316106729800, 1425030582286687500000000),
  (2068299316106729800, 2068299316106729800, 3795102051679805100, 1425030582286687500000000),
  (2068299316106729800, 3795102051679805100, 2068299316106729800, 1425030582286687500000000),
  (3795102051679805100, 2068299316106729800, 2068299316106729800, 1425030582286687500000000),
  (821035883105464830, 821035883105464830, 821035883105464830, 196703331313387510000000),
  (821035883105464830, 821035883105464830, 7536892350683599400, 196703331313387510000000),
  (821035883105464830, 7536892350683599400, 821035883105464830, 196703331313387510000000),
  (7536892350683599400, 821035883105464830, 821035883105464830, 196703331313387510000000),
  (57819505051979747, 57819505051979747, 57819505051979747, 16983410909287501000000),
  (57819505051979747, 57819505051979747, 9826541484844060200, 16983410909287501000000),
  (57819505051979747, 9826541484844060200, 57819505051979747, 16983410909287501000000),
  (9826541484844060200, 57819505051979747, 57819505051979747, 16983410909287501000000),
  (505327400188940180, 505327400188940180, 4494672599811059800, 457968382446724990000000),
  (505327400188940180, 4494672599811059800, 505327400188940180, 457968382446724990000000),
  (4494672599811059800, 505327400188940180, 505327400188940180, 457968382446724990000000),
  (505327400188940180, 4494672599811059800, 4494672599811059800, 457968382446724990000000),
  (4494672599811059800, 505327400188940180, 4494672599811059800, 457968382446724990000000),
  (4494672599811059800, 4494672599811059800, 505327400188940180, 457968382446724990000000),
  (2290665361168109900, 2290665361168109900, 356395827885340190, 570448580868187540000000),
  (2290665361168109900, 356395827885340190, 2290665361168109900, 570448580868187540000000),
  (2290665361168109900, 2290665361168109900, 5062273449778435000, 570448580868187540000000),
  (2290665361168109900, 5062273449778435000, 2290665361168109900, 570448580868187540000000),
  (2290665361168109900, 356395827885340190, 5062273449778435000, 570448580868187540000000),
  (2290665361168109900, 5062273449778435000, 356395827885340190, 570448580868187540000000),
  (356395827885340190, 2290665361168109900, 2290665361168109900, 570448580868187540000000),
  (356395827885340190, 2290665361168109900, 5062273449778435000, 570448580868187540000000),
  (356395827885340190, 5062273449778435000, 2290665361168109900, 570448580868187540000000),
  (5062273449778435000, 2290665361168109900, 356395827885340190, 570448580868187540000000),
  (5062273449778435000, 2290665361168109900, 2290665361168109900, 570448580868187540000000),
  (5062273449778435000, 356395827885340190, 2290665361168109900, 570448580868187540000000),
  (366077495531975110, 366077495531975110, 1904860419346334800, 214051914116212500000000),
  (366077495531975110, 1904860419346334800, 366077495531975110, 214051914116212500000000),
  (366077495531975110, 366077495531975110, 7362984589589715000, 214051914116212500000000),
  (366077495531975110, 7362984589589715000, 366077495531975110, 214051914116212500000000),
  (366077495531975110, 1904860419346334800, 7362984589589715000, 214051914116212500000000),
  (366077495531975110, 7362984589589715000, 1904860419346334800, 214051914116212500000000),
  (1904860419346334800, 366077495531975110, 366077495531975110, 214051914116212500000000),
  (1904860419346334800, 366077495531975110, 7362984589589715000, 214051914116212500000000),
  (1904860419346334800, 7362984589589715000, 366077495531975110, 214051914116212500000000),
  (7362984589589715000, 366077495531975110, 1904860419346334800, 214051914116212500000000),
  (7362984589589715000, 366077495531975110, 366077495531975110, 214051914116212500000000),
  (7362984589589715000, 1904860419346334800, 366077495531975110, 214051914116212500000000)]

/-- `IntegrationTypeTetrahedron.cpp:145-198`, commented `order 9` -/
def tetrahedron8 : List (ℤ × ℤ × ℤ × ℤ) := [
  (2500000000000000000, 2500000000000000000, 2500000000000000000, (-13779903832610862000000000)),
  (483510385497369910, 483510385497369910, 483510385497369910, 186533656908525010000000),
  (483510385497369910, 483510385497369910, 8549468843507900300, 186533656908525010000000),
  (483510385497369910, 8549468843507900300, 483510385497369910, 186533656908525010000000),
  (8549468843507900300, 483510385497369910, 483510385497369910, 186533656908525010000000),
  (3245792801178825100, 3245792801178825100, 3245792801178825100, 430942396949337510000000),
  (3245792801178825100, 3245792801178825100, 262621596463529780, 430942396949337510000000),
  (3245792801178825100, 262621596463529780, 3245792801178825100, 430942396949337510000000),
  (262621596463529780, 3245792801178825100, 3245792801178825100, 430942396949337510000000),
  (1146165402239949800, 1146165402239949800, 1146165402239949800, (-9018476648120149500000000)),
  (1146165402239949800, 1146165402239949800, 6561503793280145700, (-9018476648120149500000000)),
  (1146165402239949800, 6561503793280145700, 1146165402239949800, (-9018476648120149500000000)),
  (6561503793280145700, 1146165402239949800, 1146165402239949800, (-9018476648120149500000000)),
  (2254899519115140000, 2254899519115140000, 2254899519115140000, 4467257620251149900000000),
  (2254899519115140000, 2254899519115140000, 3235301442654580100, 4467257620251149900000000),
  (2254899519115140000, 3235301442654580100, 2254899519115140000, 4467257620251149900000000),
  (3235301442654580100, 2254899519115140000, 2254899519115140000, 4467257620251149900000000),
  (1316278092468700100, 1316278092468700100, 836647016171849780, 3470040588455074900000000),
  (1316278092468700100, 836647016171849780, 1316278092468700100, 3470040588455074900000000),
  (1316278092468700100, 1316278092468700100, 6530796798890754500, 3470040588455074900000000),
  (1316278092468700100, 6530796798890754500, 1316278092468700100, 3470040588455074900000000),
  (1316278092468700100, 836647016171849780, 6530796798890754500, 3470040588455074900000000),
  (1316278092468700100, 6530796798890754500, 836647016171849780, 3470040588455074900000000),
  (836647016171849780, 1316278092468700100, 1316278092468700100, 3470040588455074900000000),
  (836647016171849780, 1316278092468700100, 6530796798890754500, 3470040588455074900000000),
  (836647016171849780, 6530796798890754500, 1316278092468700100, 3470040588455074900000000),
  (6530796798890754500, 1316278092468700100, 836647016171849780, 3470040588455074900000000),
  (6530796798890754500, 1316278092468700100, 1316278092468700100, 3470040588455074900000000),
  (6530796798890754500, 836647016171849780, 1316278092468700100, 3470040588455074900000000),
  (4339514614114070000, 4339514614114070000, 1077698595494285300, 335258390266062520000000),
  (4339514614114070000, 1077698595494285300, 4339514614114070000, 335258390266062520000000),
  (4339514614114070000, 4339514614114070000, 243272176277580240, 335258390266062520000000),
  (4339514614114070000, 243272176277580240, 4339514614114070000, 335258390266062520000000),
  (4339514614114070000, 1077698595494285300, 243272176277580240, 335258390266062520000000),
  (4339514614114070000, 243272176277580240, 1077698595494285300, 335258390266062520000000),
  (1077698595494285300, 4339514614114070000, 4339514614114070000, 335258390266062520000000),
  (1077698595494285300, 4339514614114070000, 243272176277580240, 335258390266062520000000),
  (1077698595494285300, 243272176277580240, 4339514614114070000, 335258390266062520000000),
  (243272176277580240, 4339514614114070000, 1077698595494285300, 335258390266062520000000),
  (243272176277580240, 4339514614114070000, 4339514614114070000, 335258390266062520000000),
  (243272176277580240, 1077698595494285300, 4339514614114070000, 335258390266062520000000),
  ((-13762773181380528), (-13762773181380528), 2765534726368075200, 43162887555699998000000),
  ((-13762773181380528), 2765534726368075200, (-13762773181380528), 43162887555699998000000),
  ((-13762773181380528), (-13762773181380528), 7261990819994690300, 43162887555699998000000),
  ((-13762773181380528), 7261990819994690300, (-13762773181380528), 43162887555699998000000),
  ((-13762773181380528), 2765534726368075200, 7261990819994690300, 43162887555699998000000),
  ((-13762773181380528), 7261990819994690300, 2765534726368075200, 43162887555699998000000),
  (2765534726368075200, (-13762773181380528), (-13762773181380528), 43162887555699998000000),
  (2765534726368075200, (-13762773181380528), 7261990819994690300, 43162887555699998000000),
  (2765534726368075200, 7261990819994690300, (-13762773181380528), 43162887555699998000000),
  (7261990819994690300, (-13762773181380528), 2765534726368075200, 43162887555699998000000),
  (7261990819994690300, (-13762773181380528), (-13762773181380528), 43162887555699998000000),
  (7261990819994690300, 2765534726368075200, (-13762773181380528), 43162887555699998000000)]

/-- `IntegrationTypeTetrahedron.cpp:200-249`, part of the block commented `order 11` -/
def tetrahedron9_0 : List (ℤ × ℤ × ℤ × ℤ) := [
  (714285714285715080, 714285714285715080, 7857142857142854800, 4536282406508099900000000),
  (714285714285715080, 2142857142857145200, 6428571428571430200, 4536282406508099900000000),
  (714285714285715080, 3571428571428569800, 5000000000000000000, 4536282406508099900000000),
  (714285714285715080, 5000000000000000000, 3571428571428569800, 4536282406508099900000000),
  (714285714285715080, 6428571428571430200, 2142857142857145200, 4536282406508099900000000),
  (714285714285715080, 7857142857142854800, 714285714285715080, 4536282406508099900000000),
  (2142857142857145200, 714285714285715080, 6428571428571430200, 4536282406508099900000000),
  (2142857142857145200, 2142857142857145200, 5000000000000000000, 4536282406508099900000000),
  (2142857142857145200, 3571428571428569800, 3571428571428569800, 4536282406508099900000000),
  (2142857142857145200, 5000000000000000000, 2142857142857145200, 4536282406508099900000000),
  (2142857142857145200, 6428571428571430200, 714285714285715080, 4536282406508099900000000),
  (3571428571428569800, 714285714285715080, 5000000000000000000, 4536282406508099900000000),
  (3571428571428569800, 2142857142857145200, 3571428571428569800, 4536282406508099900000000),
  (3571428571428569800, 3571428571428569800, 2142857142857145200, 4536282406508099900000000),
  (3571428571428569800, 5000000000000000000, 714285714285715080, 4536282406508099900000000),
  (5000000000000000000, 714285714285715080, 3571428571428569800, 4536282406508099900000000),
  (5000000000000000000, 2142857142857145200, 2142857142857145200, 4536282406508099900000000),
  (5000000000000000000, 3571428571428569800, 714285714285715080, 4536282406508099900000000),
  (6428571428571430200, 714285714285715080, 2142857142857145200, 4536282406508099900000000),
  (6428571428571430200, 2142857142857145200, 714285714285715080, 4536282406508099900000000),
  (7857142857142854800, 714285714285715080, 714285714285715080, 4536282406508099900000000),
  (714285714285715080, 714285714285715080, 6428571428571430200, 4536282406508099900000000),
  (714285714285715080, 2142857142857145200, 5000000000000000000, 4536282406508099900000000),
  (714285714285715080, 3571428571428569800, 3571428571428569800, 4536282406508099900000000),
  (714285714285715080, 5000000000000000000, 2142857142857145200, 4536282406508099900000000),
  (714285714285715080, 6428571428571430200, 714285714285715080, 4536282406508099900000000),
  (2142857142857145200, 714285714285715080, 5000000000000000000, 4536282406508099900000000),
  (2142857142857145200, 2142857142857145200, 3571428571428569800, 4536282406508099900000000),
  (2142857142857145200, 3571428571428569800, 2142857142857145200, 4536282406508099900000000),
  (2142857142857145200, 5000000000000000000, 714285714285715080, 4536282406508099900000000),
  (3571428571428569800, 714285714285715080, 3571428571428569800, 4536282406508099900000000),
  (3571428571428569800, 2142857142857145200, 2142857142857145200, 4536282406508099900000000),
  (3571428571428569800, 3571428571428569800, 714285714285715080, 4536282406508099900000000),
  (5000000000000000000, 714285714285715080, 2142857142857145200, 4536282406508099900000000),
  (5000000000000000000, 2142857142857145200, 714285714285715080, 4536282406508099900000000),
  (6428571428571430200, 714285714285715080, 714285714285715080, 4536282406508099900000000),
  (714285714285715080, 714285714285715080, 5000000000000000000, 4536282406508099900000000),
  (714285714285715080, 2142857142857145200, 3571428571428569800, 4536282406508099900000000),
  (714285714285715080, 3571428571428569800, 2142857142857145200, 4536282406508099900000000),
  (714285714285715080, 5000000000000000000, 714285714285715080, 4536282406508099900000000),
  (2142857142857145200, 714285714285715080, 3571428571428569800, 4536282406508099900000000),
  (2142857142857145200, 2142857142857145200, 2142857142857145200, 4536282406508099900000000),
  (2142857142857145200, 3571428571428569800, 714285714285715080, 4536282406508099900000000),
  (3571428571428569800, 714285714285715080, 2142857142857145200, 4536282406508099900000000),
  (3571428571428569800, 2142857142857145200, 714285714285715080, 4536282406508099900000000),
  (5000000000000000000, 714285714285715080, 714285714285715080, 4536282406508099900000000),
  (714285714285715080, 714285714285715080, 3571428571428569800, 4536282406508099900000000),
  (714285714285715080, 2142857142857145200, 2142857142857145200, 4536282406508099900000000),
  (714285714285715080, 3571428571428569800, 714285714285715080, 4536282406508099900000000),
  (2142857142857145200, 714285714285715080, 2142857142857145200, 4536282406508099900000000)]

/-- `IntegrationTypeTetrahedron.cpp:250-299`, part of the block commented `order 11` -/
def tetrahedron9_1 : List (ℤ × ℤ × ℤ × ℤ) := [
  (2142857142857145200, 2142857142857145200, 714285714285715080, 4536282406508099900000000),
  (3571428571428569800, 714285714285715080, 714285714285715080, 4536282406508099900000000),
  (714285714285715080, 714285714285715080, 2142857142857145200, 4536282406508099900000000),
  (714285714285715080, 2142857142857145200, 714285714285715080, 4536282406508099900000000),
  (2142857142857145200, 714285714285715080, 714285714285715080, 4536282406508099900000000),
  (714285714285715080, 714285714285715080, 714285714285715080, 4536282406508099900000000),
  (833333333333334810, 833333333333334810, 7500000000000000000, (-11652347652347650000000000)),
  (833333333333334810, 2500000000000000000, 5833333333333334800, (-11652347652347650000000000)),
  (833333333333334810, 4166666666666665200, 4166666666666665200, (-11652347652347650000000000)),
  (833333333333334810, 5833333333333334800, 2500000000000000000, (-11652347652347650000000000)),
  (833333333333334810, 7500000000000000000, 833333333333334810, (-11652347652347650000000000)),
  (2500000000000000000, 833333333333334810, 5833333333333334800, (-11652347652347650000000000)),
  (2500000000000000000, 2500000000000000000, 4166666666666665200, (-11652347652347650000000000)),
  (2500000000000000000, 4166666666666665200, 2500000000000000000, (-11652347652347650000000000)),
  (2500000000000000000, 5833333333333334800, 833333333333334810, (-11652347652347650000000000)),
  (4166666666666665200, 833333333333334810, 4166666666666665200, (-11652347652347650000000000)),
  (4166666666666665200, 2500000000000000000, 2500000000000000000, (-11652347652347650000000000)),
  (4166666666666665200, 4166666666666665200, 833333333333334810, (-11652347652347650000000000)),
  (5833333333333334800, 833333333333334810, 2500000000000000000, (-11652347652347650000000000)),
  (5833333333333334800, 2500000000000000000, 833333333333334810, (-11652347652347650000000000)),
  (7500000000000000000, 833333333333334810, 833333333333334810, (-11652347652347650000000000)),
  (833333333333334810, 833333333333334810, 5833333333333334800, (-11652347652347650000000000)),
  (833333333333334810, 2500000000000000000, 4166666666666665200, (-11652347652347650000000000)),
  (833333333333334810, 4166666666666665200, 2500000000000000000, (-11652347652347650000000000)),
  (833333333333334810, 5833333333333334800, 833333333333334810, (-11652347652347650000000000)),
  (2500000000000000000, 833333333333334810, 4166666666666665200, (-11652347652347650000000000)),
  (2500000000000000000, 2500000000000000000, 2500000000000000000, (-11652347652347650000000000)),
  (2500000000000000000, 4166666666666665200, 833333333333334810, (-11652347652347650000000000)),
  (4166666666666665200, 833333333333334810, 2500000000000000000, (-11652347652347650000000000)),
  (4166666666666665200, 2500000000000000000, 833333333333334810, (-11652347652347650000000000)),
  (5833333333333334800, 833333333333334810, 833333333333334810, (-11652347652347650000000000)),
  (833333333333334810, 833333333333334810, 4166666666666665200, (-11652347652347650000000000)),
  (833333333333334810, 2500000000000000000, 2500000000000000000, (-11652347652347650000000000)),
  (833333333333334810, 4166666666666665200, 833333333333334810, (-11652347652347650000000000)),
  (2500000000000000000, 833333333333334810, 2500000000000000000, (-11652347652347650000000000)),
  (2500000000000000000, 2500000000000000000, 833333333333334810, (-11652347652347650000000000)),
  (4166666666666665200, 833333333333334810, 833333333333334810, (-11652347652347650000000000)),
  (833333333333334810, 833333333333334810, 2500000000000000000, (-11652347652347650000000000)),
  (833333333333334810, 2500000000000000000, 833333333333334810, (-11652347652347650000000000)),
  (2500000000000000000, 833333333333334810, 833333333333334810, (-11652347652347650000000000)),
  (833333333333334810, 833333333333334810, 833333333333334810, (-11652347652347650000000000)),
  (999999999999999780, 999999999999999780, 6999999999999999600, 10193728997982475000000000),
  (999999999999999780, 2999999999999999900, 5000000000000000000, 10193728997982475000000000),
  (999999999999999780, 5000000000000000000, 2999999999999999900, 10193728997982475000000000),
  (999999999999999780, 6999999999999999600, 999999999999999780, 10193728997982475000000000),
  (2999999999999999900, 999999999999999780, 5000000000000000000, 10193728997982475000000000),
  (2999999999999999900, 2999999999999999900, 2999999999999999900, 10193728997982475000000000),
  (2999999999999999900, 5000000000000000000, 999999999999999780, 10193728997982475000000000),
  (5000000000000000000, 999999999999999780, 2999999999999999900, 10193728997982475000000000),
  (5000000000000000000, 2999999999999999900, 999999999999999780, 10193728997982475000000000)]

/-- `IntegrationTypeTetrahedron.cpp:300-325`, part of the block commented `order 11` -/
def tetrahedron9_2 : List (ℤ × ℤ × ℤ × ℤ) := [
  (6999999999999999600, 999999999999999780, 999999999999999780, 10193728997982475000000000),
  (999999999999999780, 999999999999999780, 5000000000000000000, 10193728997982475000000000),
  (999999999999999780, 2999999999999999900, 2999999999999999900, 10193728997982475000000000),
  (999999999999999780, 5000000000000000000, 999999999999999780, 10193728997982475000000000),
  (2999999999999999900, 999999999999999780, 2999999999999999900, 10193728997982475000000000),
  (2999999999999999900, 2999999999999999900, 999999999999999780, 10193728997982475000000000),
  (5000000000000000000, 999999999999999780, 999999999999999780, 10193728997982475000000000),
  (999999999999999780, 999999999999999780, 2999999999999999900, 10193728997982475000000000),
  (999999999999999780, 2999999999999999900, 999999999999999780, 10193728997982475000000000),
  (2999999999999999900, 999999999999999780, 999999999999999780, 10193728997982475000000000),
  (999999999999999780, 999999999999999780, 999999999999999780, 10193728997982475000000000),
  (1250000000000000000, 1250000000000000000, 6250000000000000000, (-3502538613649725000000000)),
  (1250000000000000000, 3750000000000000000, 3750000000000000000, (-3502538613649725000000000)),
  (1250000000000000000, 6250000000000000000, 1250000000000000000, (-3502538613649725000000000)),
  (3750000000000000000, 1250000000000000000, 3750000000000000000, (-3502538613649725000000000)),
  (3750000000000000000, 3750000000000000000, 1250000000000000000, (-3502538613649725000000000)),
  (6250000000000000000, 1250000000000000000, 1250000000000000000, (-3502538613649725000000000)),
  (1250000000000000000, 1250000000000000000, 3750000000000000000, (-3502538613649725000000000)),
  (1250000000000000000, 3750000000000000000, 1250000000000000000, (-3502538613649725000000000)),
  (3750000000000000000, 1250000000000000000, 1250000000000000000, (-3502538613649725000000000)),
  (1250000000000000000, 1250000000000000000, 1250000000000000000, (-3502538613649725000000000)),
  (1666666666666665200, 1666666666666665200, 5000000000000000000, 406808035714287510000000),
  (1666666666666665200, 5000000000000000000, 1666666666666665200, 406808035714287510000000),
  (5000000000000000000, 1666666666666665200, 1666666666666665200, 406808035714287510000000),
  (1666666666666665200, 1666666666666665200, 1666666666666665200, 406808035714287510000000),
  (2500000000000000000, 2500000000000000000, 2500000000000000000, (-9406231628449999600000))]

/-- `IntegrationTypeTetrahedron.cpp:199-325`, commented `order 11` -/
def tetrahedron9 : List (ℤ × ℤ × ℤ × ℤ) :=
  tetrahedron9_0 ++ (tetrahedron9_1 ++ (tetrahedron9_2))

/-- `IntegrationTypeTetrahedron.cpp:327-376`, part of the block commented `order 13` -/
def tetrahedron10_0 : List (ℤ × ℤ × ℤ × ℤ) := [
  (625000000000000000, 625000000000000000, 8125000000000000000, 5255090901651750200000000),
  (625000000000000000, 1875000000000000000, 6875000000000000000, 5255090901651750200000000),
  (625000000000000000, 3125000000000000000, 5625000000000000000, 5255090901651750200000000),
  (625000000000000000, 4375000000000000000, 4375000000000000000, 5255090901651750200000000),
  (625000000000000000, 5625000000000000000, 3125000000000000000, 5255090901651750200000000),
  (625000000000000000, 6875000000000000000, 1875000000000000000, 5255090901651750200000000),
  (625000000000000000, 8125000000000000000, 625000000000000000, 5255090901651750200000000),
  (1875000000000000000, 625000000000000000, 6875000000000000000, 5255090901651750200000000),
  (1875000000000000000, 1875000000000000000, 5625000000000000000, 5255090901651750200000000),
  (1875000000000000000, 3125000000000000000, 4375000000000000000, 5255090901651750200000000),
  (1875000000000000000, 4375000000000000000, 3125000000000000000, 5255090901651750200000000),
  (1875000000000000000, 5625000000000000000, 1875000000000000000, 5255090901651750200000000),
  (1875000000000000000, 6875000000000000000, 625000000000000000, 5255090901651750200000000),
  (3125000000000000000, 625000000000000000, 5625000000000000000, 5255090901651750200000000),
  (3125000000000000000, 1875000000000000000, 4375000000000000000, 5255090901651750200000000),
  (3125000000000000000, 3125000000000000000, 3125000000000000000, 5255090901651750200000000),
  (3125000000000000000, 4375000000000000000, 1875000000000000000, 5255090901651750200000000),
  (3125000000000000000, 5625000000000000000, 625000000000000000, 5255090901651750200000000),
  (4375000000000000000, 625000000000000000, 4375000000000000000, 5255090901651750200000000),
  (4375000000000000000, 1875000000000000000, 3125000000000000000, 5255090901651750200000000),
  (4375000000000000000, 3125000000000000000, 1875000000000000000, 5255090901651750200000000),
  (4375000000000000000, 4375000000000000000, 625000000000000000, 5255090901651750200000000),
  (5625000000000000000, 625000000000000000, 3125000000000000000, 5255090901651750200000000),
  (5625000000000000000, 1875000000000000000, 1875000000000000000, 5255090901651750200000000),
  (5625000000000000000, 3125000000000000000, 625000000000000000, 5255090901651750200000000),
  (6875000000000000000, 625000000000000000, 1875000000000000000, 5255090901651750200000000),
  (6875000000000000000, 1875000000000000000, 625000000000000000, 5255090901651750200000000),
  (8125000000000000000, 625000000000000000, 625000000000000000, 5255090901651750200000000),
  (625000000000000000, 625000000000000000, 6875000000000000000, 5255090901651750200000000),
  (625000000000000000, 1875000000000000000, 5625000000000000000, 5255090901651750200000000),
  (625000000000000000, 3125000000000000000, 4375000000000000000, 5255090901651750200000000),
  (625000000000000000, 4375000000000000000, 3125000000000000000, 5255090901651750200000000),
  (625000000000000000, 5625000000000000000, 1875000000000000000, 5255090901651750200000000),
  (625000000000000000, 6875000000000000000, 625000000000000000, 5255090901651750200000000),
  (1875000000000000000, 625000000000000000, 5625000000000000000, 5255090901651750200000000),
  (1875000000000000000, 1875000000000000000, 4375000000000000000, 5255090901651750200000000),
  (1875000000000000000, 3125000000000000000, 3125000000000000000, 5255090901651750200000000),
  (1875000000000000000, 4375000000000000000, 1875000000000000000, 5255090901651750200000000),
  (1875000000000000000, 5625000000000000000, 625000000000000000, 5255090901651750200000000),
  (3125000000000000000, 625000000000000000, 4375000000000000000, 5255090901651750200000000),
  (3125000000000000000, 1875000000000000000, 3125000000000000000, 5255090901651750200000000),
  (3125000000000000000, 3125000000000000000, 1875000000000000000, 5255090901651750200000000),
  (3125000000000000000, 4375000000000000000, 625000000000000000, 5255090901651750200000000),
  (4375000000000000000, 625000000000000000, 3125000000000000000, 5255090901651750200000000),
  (4375000000000000000, 1875000000000000000, 1875000000000000000, 5255090901651750200000000),
  (4375000000000000000, 3125000000000000000, 625000000000000000, 5255090901651750200000000),
  (5625000000000000000, 625000000000000000, 1875000000000000000, 5255090901651750200000000),
  (5625000000000000000, 1875000000000000000, 625000000000000000, 5255090901651750200000000),
  (6875000000000000000, 625000000000000000, 625000000000000000, 5255090901651750200000000),
  (625000000000000000, 625000000000000000, 5625000000000000000, 5255090901651750200000000)]

/-- `IntegrationTypeTetrahedron.cpp:377-426`, part of the block commented `order 13` -/
def tetrahedron10_1 : List (ℤ × ℤ × ℤ × ℤ) := [
  (625000000000000000, 1875000000000000000, 4375000000000000000, 5255090901651750200000000),
  (625000000000000000, 3125000000000000000, 3125000000000000000, 5255090901651750200000000),
  (625000000000000000, 4375000000000000000, 1875000000000000000, 5255090901651750200000000),
  (625000000000000000, 5625000000000000000, 625000000000000000, 5255090901651750200000000),
  (1875000000000000000, 625000000000000000, 4375000000000000000, 5255090901651750200000000),
  (1875000000000000000, 1875000000000000000, 3125000000000000000, 5255090901651750200000000),
  (1875000000000000000, 3125000000000000000, 1875000000000000000, 5255090901651750200000000),
  (1875000000000000000, 4375000000000000000, 625000000000000000, 5255090901651750200000000),
  (3125000000000000000, 625000000000000000, 3125000000000000000, 5255090901651750200000000),
  (3125000000000000000, 1875000000000000000, 1875000000000000000, 5255090901651750200000000),
  (3125000000000000000, 3125000000000000000, 625000000000000000, 5255090901651750200000000),
  (4375000000000000000, 625000000000000000, 1875000000000000000, 5255090901651750200000000),
  (4375000000000000000, 1875000000000000000, 625000000000000000, 5255090901651750200000000),
  (5625000000000000000, 625000000000000000, 625000000000000000, 5255090901651750200000000),
  (625000000000000000, 625000000000000000, 4375000000000000000, 5255090901651750200000000),
  (625000000000000000, 1875000000000000000, 3125000000000000000, 5255090901651750200000000),
  (625000000000000000, 3125000000000000000, 1875000000000000000, 5255090901651750200000000),
  (625000000000000000, 4375000000000000000, 625000000000000000, 5255090901651750200000000),
  (1875000000000000000, 625000000000000000, 3125000000000000000, 5255090901651750200000000),
  (1875000000000000000, 1875000000000000000, 1875000000000000000, 5255090901651750200000000),
  (1875000000000000000, 3125000000000000000, 625000000000000000, 5255090901651750200000000),
  (3125000000000000000, 625000000000000000, 1875000000000000000, 5255090901651750200000000),
  (3125000000000000000, 1875000000000000000, 625000000000000000, 5255090901651750200000000),
  (4375000000000000000, 625000000000000000, 625000000000000000, 5255090901651750200000000),
  (625000000000000000, 625000000000000000, 3125000000000000000, 5255090901651750200000000),
  (625000000000000000, 1875000000000000000, 1875000000000000000, 5255090901651750200000000),
  (625000000000000000, 3125000000000000000, 625000000000000000, 5255090901651750200000000),
  (1875000000000000000, 625000000000000000, 1875000000000000000, 5255090901651750200000000),
  (1875000000000000000, 1875000000000000000, 625000000000000000, 5255090901651750200000000),
  (3125000000000000000, 625000000000000000, 625000000000000000, 5255090901651750200000000),
  (625000000000000000, 625000000000000000, 1875000000000000000, 5255090901651750200000000),
  (625000000000000000, 1875000000000000000, 625000000000000000, 5255090901651750200000000),
  (1875000000000000000, 625000000000000000, 625000000000000000, 5255090901651750200000000),
  (625000000000000000, 625000000000000000, 625000000000000000, 5255090901651750200000000),
  (714285714285715080, 714285714285715080, 7857142857142854800, (-14818522527926462000000000)),
  (714285714285715080, 2142857142857145200, 6428571428571430200, (-14818522527926462000000000)),
  (714285714285715080, 3571428571428569800, 5000000000000000000, (-14818522527926462000000000)),
  (714285714285715080, 5000000000000000000, 3571428571428569800, (-14818522527926462000000000)),
  (714285714285715080, 6428571428571430200, 2142857142857145200, (-14818522527926462000000000)),
  (714285714285715080, 7857142857142854800, 714285714285715080, (-14818522527926462000000000)),
  (2142857142857145200, 714285714285715080, 6428571428571430200, (-14818522527926462000000000)),
  (2142857142857145200, 2142857142857145200, 5000000000000000000, (-14818522527926462000000000)),
  (2142857142857145200, 3571428571428569800, 3571428571428569800, (-14818522527926462000000000)),
  (2142857142857145200, 5000000000000000000, 2142857142857145200, (-14818522527926462000000000)),
  (2142857142857145200, 6428571428571430200, 714285714285715080, (-14818522527926462000000000)),
  (3571428571428569800, 714285714285715080, 5000000000000000000, (-14818522527926462000000000)),
  (3571428571428569800, 2142857142857145200, 3571428571428569800, (-14818522527926462000000000)),
  (3571428571428569800, 3571428571428569800, 2142857142857145200, (-14818522527926462000000000)),
  (3571428571428569800, 5000000000000000000, 714285714285715080, (-14818522527926462000000000)),
  (5000000000000000000, 714285714285715080, 3571428571428569800, (-14818522527926462000000000))]

/-- `IntegrationTypeTetrahedron.cpp:427-476`, part of the block commented `order 13` -/
def tetrahedron10_2 : List (ℤ × ℤ × ℤ × ℤ) := [
  (5000000000000000000, 2142857142857145200, 2142857142857145200, (-14818522527926462000000000)),
  (5000000000000000000, 3571428571428569800, 714285714285715080, (-14818522527926462000000000)),
  (6428571428571430200, 714285714285715080, 2142857142857145200, (-14818522527926462000000000)),
  (6428571428571430200, 2142857142857145200, 714285714285715080, (-14818522527926462000000000)),
  (7857142857142854800, 714285714285715080, 714285714285715080, (-14818522527926462000000000)),
  (714285714285715080, 714285714285715080, 6428571428571430200, (-14818522527926462000000000)),
  (714285714285715080, 2142857142857145200, 5000000000000000000, (-14818522527926462000000000)),
  (714285714285715080, 3571428571428569800, 3571428571428569800, (-14818522527926462000000000)),
  (714285714285715080, 5000000000000000000, 2142857142857145200, (-14818522527926462000000000)),
  (714285714285715080, 6428571428571430200, 714285714285715080, (-14818522527926462000000000)),
  (2142857142857145200, 714285714285715080, 5000000000000000000, (-14818522527926462000000000)),
  (2142857142857145200, 2142857142857145200, 3571428571428569800, (-14818522527926462000000000)),
  (2142857142857145200, 3571428571428569800, 2142857142857145200, (-14818522527926462000000000)),
  (2142857142857145200, 5000000000000000000, 714285714285715080, (-14818522527926462000000000)),
  (3571428571428569800, 714285714285715080, 3571428571428569800, (-14818522527926462000000000)),
  (3571428571428569800, 2142857142857145200, 2142857142857145200, (-14818522527926462000000000)),
  (3571428571428569800, 3571428571428569800, 714285714285715080, (-14818522527926462000000000)),
  (5000000000000000000, 714285714285715080, 2142857142857145200, (-14818522527926462000000000)),
  (5000000000000000000, 2142857142857145200, 714285714285715080, (-14818522527926462000000000)),
  (6428571428571430200, 714285714285715080, 714285714285715080, (-14818522527926462000000000)),
  (714285714285715080, 714285714285715080, 5000000000000000000, (-14818522527926462000000000)),
  (714285714285715080, 2142857142857145200, 3571428571428569800, (-14818522527926462000000000)),
  (714285714285715080, 3571428571428569800, 2142857142857145200, (-14818522527926462000000000)),
  (714285714285715080, 5000000000000000000, 714285714285715080, (-14818522527926462000000000)),
  (2142857142857145200, 714285714285715080, 3571428571428569800, (-14818522527926462000000000)),
  (2142857142857145200, 2142857142857145200, 2142857142857145200, (-14818522527926462000000000)),
  (2142857142857145200, 3571428571428569800, 714285714285715080, (-14818522527926462000000000)),
  (3571428571428569800, 714285714285715080, 2142857142857145200, (-14818522527926462000000000)),
  (3571428571428569800, 2142857142857145200, 714285714285715080, (-14818522527926462000000000)),
  (5000000000000000000, 714285714285715080, 714285714285715080, (-14818522527926462000000000)),
  (714285714285715080, 714285714285715080, 3571428571428569800, (-14818522527926462000000000)),
  (714285714285715080, 2142857142857145200, 2142857142857145200, (-14818522527926462000000000)),
  (714285714285715080, 3571428571428569800, 714285714285715080, (-14818522527926462000000000)),
  (2142857142857145200, 714285714285715080, 2142857142857145200, (-14818522527926462000000000)),
  (2142857142857145200, 2142857142857145200, 714285714285715080, (-14818522527926462000000000)),
  (3571428571428569800, 714285714285715080, 714285714285715080, (-14818522527926462000000000)),
  (714285714285715080, 714285714285715080, 2142857142857145200, (-14818522527926462000000000)),
  (714285714285715080, 2142857142857145200, 714285714285715080, (-14818522527926462000000000)),
  (2142857142857145200, 714285714285715080, 714285714285715080, (-14818522527926462000000000)),
  (714285714285715080, 714285714285715080, 714285714285715080, (-14818522527926462000000000)),
  (833333333333334810, 833333333333334810, 7500000000000000000, 14981589838732701000000000),
  (833333333333334810, 2500000000000000000, 5833333333333334800, 14981589838732701000000000),
  (833333333333334810, 4166666666666665200, 4166666666666665200, 14981589838732701000000000),
  (833333333333334810, 5833333333333334800, 2500000000000000000, 14981589838732701000000000),
  (833333333333334810, 7500000000000000000, 833333333333334810, 14981589838732701000000000),
  (2500000000000000000, 833333333333334810, 5833333333333334800, 14981589838732701000000000),
  (2500000000000000000, 2500000000000000000, 4166666666666665200, 14981589838732701000000000),
  (2500000000000000000, 4166666666666665200, 2500000000000000000, 14981589838732701000000000),
  (2500000000000000000, 5833333333333334800, 833333333333334810, 14981589838732701000000000),
  (4166666666666665200, 833333333333334810, 4166666666666665200, 14981589838732701000000000)]

/-- `IntegrationTypeTetrahedron.cpp:477-526`, part of the block commented `order 13` -/
def tetrahedron10_3 : List (ℤ × ℤ × ℤ × ℤ) := [
  (4166666666666665200, 2500000000000000000, 2500000000000000000, 14981589838732701000000000),
  (4166666666666665200, 4166666666666665200, 833333333333334810, 14981589838732701000000000),
  (5833333333333334800, 833333333333334810, 2500000000000000000, 14981589838732701000000000),
  (5833333333333334800, 2500000000000000000, 833333333333334810, 14981589838732701000000000),
  (7500000000000000000, 833333333333334810, 833333333333334810, 14981589838732701000000000),
  (833333333333334810, 833333333333334810, 5833333333333334800, 14981589838732701000000000),
  (833333333333334810, 2500000000000000000, 4166666666666665200, 14981589838732701000000000),
  (833333333333334810, 4166666666666665200, 2500000000000000000, 14981589838732701000000000),
  (833333333333334810, 5833333333333334800, 833333333333334810, 14981589838732701000000000),
  (2500000000000000000, 833333333333334810, 4166666666666665200, 14981589838732701000000000),
  (2500000000000000000, 2500000000000000000, 2500000000000000000, 14981589838732701000000000),
  (2500000000000000000, 4166666666666665200, 833333333333334810, 14981589838732701000000000),
  (4166666666666665200, 833333333333334810, 2500000000000000000, 14981589838732701000000000),
  (4166666666666665200, 2500000000000000000, 833333333333334810, 14981589838732701000000000),
  (5833333333333334800, 833333333333334810, 833333333333334810, 14981589838732701000000000),
  (833333333333334810, 833333333333334810, 4166666666666665200, 14981589838732701000000000),
  (833333333333334810, 2500000000000000000, 2500000000000000000, 14981589838732701000000000),
  (833333333333334810, 4166666666666665200, 833333333333334810, 14981589838732701000000000),
  (2500000000000000000, 833333333333334810, 2500000000000000000, 14981589838732701000000000),
  (2500000000000000000, 2500000000000000000, 833333333333334810, 14981589838732701000000000),
  (4166666666666665200, 833333333333334810, 833333333333334810, 14981589838732701000000000),
  (833333333333334810, 833333333333334810, 2500000000000000000, 14981589838732701000000000),
  (833333333333334810, 2500000000000000000, 833333333333334810, 14981589838732701000000000),
  (2500000000000000000, 833333333333334810, 833333333333334810, 14981589838732701000000000),
  (833333333333334810, 833333333333334810, 833333333333334810, 14981589838732701000000000),
  (999999999999999780, 999999999999999780, 6999999999999999600, (-6534441665373375000000000)),
  (999999999999999780, 2999999999999999900, 5000000000000000000, (-6534441665373375000000000)),
  (999999999999999780, 5000000000000000000, 2999999999999999900, (-6534441665373375000000000)),
  (999999999999999780, 6999999999999999600, 999999999999999780, (-6534441665373375000000000)),
  (2999999999999999900, 999999999999999780, 5000000000000000000, (-6534441665373375000000000)),
  (2999999999999999900, 2999999999999999900, 2999999999999999900, (-6534441665373375000000000)),
  (2999999999999999900, 5000000000000000000, 999999999999999780, (-6534441665373375000000000)),
  (5000000000000000000, 999999999999999780, 2999999999999999900, (-6534441665373375000000000)),
  (5000000000000000000, 2999999999999999900, 999999999999999780, (-6534441665373375000000000)),
  (6999999999999999600, 999999999999999780, 999999999999999780, (-6534441665373375000000000)),
  (999999999999999780, 999999999999999780, 5000000000000000000, (-6534441665373375000000000)),
  (999999999999999780, 2999999999999999900, 2999999999999999900, (-6534441665373375000000000)),
  (999999999999999780, 5000000000000000000, 999999999999999780, (-6534441665373375000000000)),
  (2999999999999999900, 999999999999999780, 2999999999999999900, (-6534441665373375000000000)),
  (2999999999999999900, 2999999999999999900, 999999999999999780, (-6534441665373375000000000)),
  (5000000000000000000, 999999999999999780, 999999999999999780, (-6534441665373375000000000)),
  (999999999999999780, 999999999999999780, 2999999999999999900, (-6534441665373375000000000)),
  (999999999999999780, 2999999999999999900, 999999999999999780, (-6534441665373375000000000)),
  (2999999999999999900, 999999999999999780, 999999999999999780, (-6534441665373375000000000)),
  (999999999999999780, 999999999999999780, 999999999999999780, (-6534441665373375000000000)),
  (1250000000000000000, 1250000000000000000, 6250000000000000000, 1167512871216575000000000),
  (1250000000000000000, 3750000000000000000, 3750000000000000000, 1167512871216575000000000),
  (1250000000000000000, 6250000000000000000, 1250000000000000000, 1167512871216575000000000),
  (3750000000000000000, 1250000000000000000, 3750000000000000000, 1167512871216575000000000),
  (3750000000000000000, 3750000000000000000, 1250000000000000000, 1167512871216575000000000)]

/-- `IntegrationTypeTetrahedron.cpp:527-536`, part of the block commented `order 13` -/
def tetrahedron10_4 : List (ℤ × ℤ × ℤ × ℤ) := [
  (6250000000000000000, 1250000000000000000, 1250000000000000000, 1167512871216575000000000),
  (1250000000000000000, 1250000000000000000, 3750000000000000000, 1167512871216575000000000),
  (1250000000000000000, 3750000000000000000, 1250000000000000000, 1167512871216575000000000),
  (3750000000000000000, 1250000000000000000, 1250000000000000000, 1167512871216575000000000),
  (1250000000000000000, 1250000000000000000, 1250000000000000000, 1167512871216575000000000),
  (1666666666666665200, 1666666666666665200, 5000000000000000000, (-66568587662337497000000)),
  (1666666666666665200, 5000000000000000000, 1666666666666665200, (-66568587662337497000000)),
  (5000000000000000000, 1666666666666665200, 1666666666666665200, (-66568587662337497000000)),
  (1666666666666665200, 1666666666666665200, 1666666666666665200, (-66568587662337497000000)),
  (2500000000000000000, 2500000000000000000, 2500000000000000000, 627082108562499970000)]

/-- `IntegrationTypeTetrahedron.cpp:326-536`, commented `order 13` -/
def tetrahedron10 : List (ℤ × ℤ × ℤ × ℤ) :=
  tetrahedron10_0 ++ (tetrahedron10_1 ++ (tetrahedron10_2 ++ (tetrahedron10_3 ++ (tetrahedron10_4))))

/-- `IntegrationTypeTetrahedron.cpp:538-587`, part of the block commented `order 15` -/
def tetrahedron11_0 : List (ℤ × ℤ × ℤ × ℤ) := [
  (555555555555555250, 555555555555555250, 8333333333333334800, 6431712410365700300000000),
  (555555555555555250, 1666666666666665200, 7222222222222219900, 6431712410365700300000000),
  (555555555555555250, 2777777777777780100, 6111111111111109400, 6431712410365700300000000),
  (555555555555555250, 3888888888888890100, 5000000000000000000, 6431712410365700300000000),
  (555555555555555250, 5000000000000000000, 3888888888888890100, 6431712410365700300000000),
  (555555555555555250, 6111111111111109400, 2777777777777780100, 6431712410365700300000000),
  (555555555555555250, 7222222222222219900, 1666666666666665200, 6431712410365700300000000),
  (555555555555555250, 8333333333333334800, 555555555555555250, 6431712410365700300000000),
  (1666666666666665200, 555555555555555250, 7222222222222219900, 6431712410365700300000000),
  (1666666666666665200, 1666666666666665200, 6111111111111109400, 6431712410365700300000000),
  (1666666666666665200, 2777777777777780100, 5000000000000000000, 6431712410365700300000000),
  (1666666666666665200, 3888888888888890100, 3888888888888890100, 6431712410365700300000000),
  (1666666666666665200, 5000000000000000000, 2777777777777780100, 6431712410365700300000000),
  (1666666666666665200, 6111111111111109400, 1666666666666665200, 6431712410365700300000000),
  (1666666666666665200, 7222222222222219900, 555555555555555250, 6431712410365700300000000),
  (2777777777777780100, 555555555555555250, 6111111111111109400, 6431712410365700300000000),
  (2777777777777780100, 1666666666666665200, 5000000000000000000, 6431712410365700300000000),
  (2777777777777780100, 2777777777777780100, 3888888888888890100, 6431712410365700300000000),
  (2777777777777780100, 3888888888888890100, 2777777777777780100, 6431712410365700300000000),
  (2777777777777780100, 5000000000000000000, 1666666666666665200, 6431712410365700300000000),
  (2777777777777780100, 6111111111111109400, 555555555555555250, 6431712410365700300000000),
  (3888888888888890100, 555555555555555250, 5000000000000000000, 6431712410365700300000000),
  (3888888888888890100, 1666666666666665200, 3888888888888890100, 6431712410365700300000000),
  (3888888888888890100, 2777777777777780100, 2777777777777780100, 6431712410365700300000000),
  (3888888888888890100, 3888888888888890100, 1666666666666665200, 6431712410365700300000000),
  (3888888888888890100, 5000000000000000000, 555555555555555250, 6431712410365700300000000),
  (5000000000000000000, 555555555555555250, 3888888888888890100, 6431712410365700300000000),
  (5000000000000000000, 1666666666666665200, 2777777777777780100, 6431712410365700300000000),
  (5000000000000000000, 2777777777777780100, 1666666666666665200, 6431712410365700300000000),
  (5000000000000000000, 3888888888888890100, 555555555555555250, 6431712410365700300000000),
  (6111111111111109400, 555555555555555250, 2777777777777780100, 6431712410365700300000000),
  (6111111111111109400, 1666666666666665200, 1666666666666665200, 6431712410365700300000000),
  (6111111111111109400, 2777777777777780100, 555555555555555250, 6431712410365700300000000),
  (7222222222222219900, 555555555555555250, 1666666666666665200, 6431712410365700300000000),
  (7222222222222219900, 1666666666666665200, 555555555555555250, 6431712410365700300000000),
  (8333333333333334800, 555555555555555250, 555555555555555250, 6431712410365700300000000),
  (555555555555555250, 555555555555555250, 7222222222222219900, 6431712410365700300000000),
  (555555555555555250, 1666666666666665200, 6111111111111109400, 6431712410365700300000000),
  (555555555555555250, 2777777777777780100, 5000000000000000000, 6431712410365700300000000),
  (555555555555555250, 3888888888888890100, 3888888888888890100, 6431712410365700300000000),
  (555555555555555250, 5000000000000000000, 2777777777777780100, 6431712410365700300000000),
  (555555555555555250, 6111111111111109400, 1666666666666665200, 6431712410365700300000000),
  (555555555555555250, 7222222222222219900, 555555555555555250, 6431712410365700300000000),
  (1666666666666665200, 555555555555555250, 6111111111111109400, 6431712410365700300000000),
  (1666666666666665200, 1666666666666665200, 5000000000000000000, 6431712410365700300000000),
  (1666666666666665200, 2777777777777780100, 3888888888888890100, 6431712410365700300000000),
  (1666666666666665200, 3888888888888890100, 2777777777777780100, 6431712410365700300000000),
  (1666666666666665200, 5000000000000000000, 1666666666666665200, 6431712410365700300000000),
  (1666666666666665200, 6111111111111109400, 555555555555555250, 6431712410365700300000000),
  (2777777777777780100, 555555555555555250, 5000000000000000000, 6431712410365700300000000)]

/-- `IntegrationTypeTetrahedron.cpp:588-637`, part of the block commented `order 15` -/
def tetrahedron11_1 : List (ℤ × ℤ × ℤ × ℤ) := [
  (2777777777777780100, 1666666666666665200, 3888888888888890100, 6431712410365700300000000),
  (2777777777777780100, 2777777777777780100, 2777777777777780100, 6431712410365700300000000),
  (2777777777777780100, 3888888888888890100, 1666666666666665200, 6431712410365700300000000),
  (2777777777777780100, 5000000000000000000, 555555555555555250, 6431712410365700300000000),
  (3888888888888890100, 555555555555555250, 3888888888888890100, 6431712410365700300000000),
  (3888888888888890100, 1666666666666665200, 2777777777777780100, 6431712410365700300000000),
  (3888888888888890100, 2777777777777780100, 1666666666666665200, 6431712410365700300000000),
  (3888888888888890100, 3888888888888890100, 555555555555555250, 6431712410365700300000000),
  (5000000000000000000, 555555555555555250, 2777777777777780100, 6431712410365700300000000),
  (5000000000000000000, 1666666666666665200, 1666666666666665200, 6431712410365700300000000),
  (5000000000000000000, 2777777777777780100, 555555555555555250, 6431712410365700300000000),
  (6111111111111109400, 555555555555555250, 1666666666666665200, 6431712410365700300000000),
  (6111111111111109400, 1666666666666665200, 555555555555555250, 6431712410365700300000000),
  (7222222222222219900, 555555555555555250, 555555555555555250, 6431712410365700300000000),
  (555555555555555250, 555555555555555250, 6111111111111109400, 6431712410365700300000000),
  (555555555555555250, 1666666666666665200, 5000000000000000000, 6431712410365700300000000),
  (555555555555555250, 2777777777777780100, 3888888888888890100, 6431712410365700300000000),
  (555555555555555250, 3888888888888890100, 2777777777777780100, 6431712410365700300000000),
  (555555555555555250, 5000000000000000000, 1666666666666665200, 6431712410365700300000000),
  (555555555555555250, 6111111111111109400, 555555555555555250, 6431712410365700300000000),
  (1666666666666665200, 555555555555555250, 5000000000000000000, 6431712410365700300000000),
  (1666666666666665200, 1666666666666665200, 3888888888888890100, 6431712410365700300000000),
  (1666666666666665200, 2777777777777780100, 2777777777777780100, 6431712410365700300000000),
  (1666666666666665200, 3888888888888890100, 1666666666666665200, 6431712410365700300000000),
  (1666666666666665200, 5000000000000000000, 555555555555555250, 6431712410365700300000000),
  (2777777777777780100, 555555555555555250, 3888888888888890100, 6431712410365700300000000),
  (2777777777777780100, 1666666666666665200, 2777777777777780100, 6431712410365700300000000),
  (2777777777777780100, 2777777777777780100, 1666666666666665200, 6431712410365700300000000),
  (2777777777777780100, 3888888888888890100, 555555555555555250, 6431712410365700300000000),
  (3888888888888890100, 555555555555555250, 2777777777777780100, 6431712410365700300000000),
  (3888888888888890100, 1666666666666665200, 1666666666666665200, 6431712410365700300000000),
  (3888888888888890100, 2777777777777780100, 555555555555555250, 6431712410365700300000000),
  (5000000000000000000, 555555555555555250, 1666666666666665200, 6431712410365700300000000),
  (5000000000000000000, 1666666666666665200, 555555555555555250, 6431712410365700300000000),
  (6111111111111109400, 555555555555555250, 555555555555555250, 6431712410365700300000000),
  (555555555555555250, 555555555555555250, 5000000000000000000, 6431712410365700300000000),
  (555555555555555250, 1666666666666665200, 3888888888888890100, 6431712410365700300000000),
  (555555555555555250, 2777777777777780100, 2777777777777780100, 6431712410365700300000000),
  (555555555555555250, 3888888888888890100, 1666666666666665200, 6431712410365700300000000),
  (555555555555555250, 5000000000000000000, 555555555555555250, 6431712410365700300000000),
  (1666666666666665200, 555555555555555250, 3888888888888890100, 6431712410365700300000000),
  (1666666666666665200, 1666666666666665200, 2777777777777780100, 6431712410365700300000000),
  (1666666666666665200, 2777777777777780100, 1666666666666665200, 6431712410365700300000000),
  (1666666666666665200, 3888888888888890100, 555555555555555250, 6431712410365700300000000),
  (2777777777777780100, 555555555555555250, 2777777777777780100, 6431712410365700300000000),
  (2777777777777780100, 1666666666666665200, 1666666666666665200, 6431712410365700300000000),
  (2777777777777780100, 2777777777777780100, 555555555555555250, 6431712410365700300000000),
  (3888888888888890100, 555555555555555250, 1666666666666665200, 6431712410365700300000000),
  (3888888888888890100, 1666666666666665200, 555555555555555250, 6431712410365700300000000),
  (5000000000000000000, 555555555555555250, 555555555555555250, 6431712410365700300000000)]

/-- `IntegrationTypeTetrahedron.cpp:638-687`, part of the block commented `order 15` -/
def tetrahedron11_2 : List (ℤ × ℤ × ℤ × ℤ) := [
  (555555555555555250, 555555555555555250, 3888888888888890100, 6431712410365700300000000),
  (555555555555555250, 1666666666666665200, 2777777777777780100, 6431712410365700300000000),
  (555555555555555250, 2777777777777780100, 1666666666666665200, 6431712410365700300000000),
  (555555555555555250, 3888888888888890100, 555555555555555250, 6431712410365700300000000),
  (1666666666666665200, 555555555555555250, 2777777777777780100, 6431712410365700300000000),
  (1666666666666665200, 1666666666666665200, 1666666666666665200, 6431712410365700300000000),
  (1666666666666665200, 2777777777777780100, 555555555555555250, 6431712410365700300000000),
  (2777777777777780100, 555555555555555250, 1666666666666665200, 6431712410365700300000000),
  (2777777777777780100, 1666666666666665200, 555555555555555250, 6431712410365700300000000),
  (3888888888888890100, 555555555555555250, 555555555555555250, 6431712410365700300000000),
  (555555555555555250, 555555555555555250, 2777777777777780100, 6431712410365700300000000),
  (555555555555555250, 1666666666666665200, 1666666666666665200, 6431712410365700300000000),
  (555555555555555250, 2777777777777780100, 555555555555555250, 6431712410365700300000000),
  (1666666666666665200, 555555555555555250, 1666666666666665200, 6431712410365700300000000),
  (1666666666666665200, 1666666666666665200, 555555555555555250, 6431712410365700300000000),
  (2777777777777780100, 555555555555555250, 555555555555555250, 6431712410365700300000000),
  (555555555555555250, 555555555555555250, 1666666666666665200, 6431712410365700300000000),
  (555555555555555250, 1666666666666665200, 555555555555555250, 6431712410365700300000000),
  (1666666666666665200, 555555555555555250, 555555555555555250, 6431712410365700300000000),
  (555555555555555250, 555555555555555250, 555555555555555250, 6431712410365700300000000),
  (625000000000000000, 625000000000000000, 8125000000000000000, (-19783871629747762000000000)),
  (625000000000000000, 1875000000000000000, 6875000000000000000, (-19783871629747762000000000)),
  (625000000000000000, 3125000000000000000, 5625000000000000000, (-19783871629747762000000000)),
  (625000000000000000, 4375000000000000000, 4375000000000000000, (-19783871629747762000000000)),
  (625000000000000000, 5625000000000000000, 3125000000000000000, (-19783871629747762000000000)),
  (625000000000000000, 6875000000000000000, 1875000000000000000, (-19783871629747762000000000)),
  (625000000000000000, 8125000000000000000, 625000000000000000, (-19783871629747762000000000)),
  (1875000000000000000, 625000000000000000, 6875000000000000000, (-19783871629747762000000000)),
  (1875000000000000000, 1875000000000000000, 5625000000000000000, (-19783871629747762000000000)),
  (1875000000000000000, 3125000000000000000, 4375000000000000000, (-19783871629747762000000000)),
  (1875000000000000000, 4375000000000000000, 3125000000000000000, (-19783871629747762000000000)),
  (1875000000000000000, 5625000000000000000, 1875000000000000000, (-19783871629747762000000000)),
  (1875000000000000000, 6875000000000000000, 625000000000000000, (-19783871629747762000000000)),
  (3125000000000000000, 625000000000000000, 5625000000000000000, (-19783871629747762000000000)),
  (3125000000000000000, 1875000000000000000, 4375000000000000000, (-19783871629747762000000000)),
  (3125000000000000000, 3125000000000000000, 3125000000000000000, (-19783871629747762000000000)),
  (3125000000000000000, 4375000000000000000, 1875000000000000000, (-19783871629747762000000000)),
  (3125000000000000000, 5625000000000000000, 625000000000000000, (-19783871629747762000000000)),
  (4375000000000000000, 625000000000000000, 4375000000000000000, (-19783871629747762000000000)),
  (4375000000000000000, 1875000000000000000, 3125000000000000000, (-19783871629747762000000000)),
  (4375000000000000000, 3125000000000000000, 1875000000000000000, (-19783871629747762000000000)),
  (4375000000000000000, 4375000000000000000, 625000000000000000, (-19783871629747762000000000)),
  (5625000000000000000, 625000000000000000, 3125000000000000000, (-19783871629747762000000000)),
  (5625000000000000000, 1875000000000000000, 1875000000000000000, (-19783871629747762000000000)),
  (5625000000000000000, 3125000000000000000, 625000000000000000, (-19783871629747762000000000)),
  (6875000000000000000, 625000000000000000, 1875000000000000000, (-19783871629747762000000000)),
  (6875000000000000000, 1875000000000000000, 625000000000000000, (-19783871629747762000000000)),
  (8125000000000000000, 625000000000000000, 625000000000000000, (-19783871629747762000000000)),
  (625000000000000000, 625000000000000000, 6875000000000000000, (-19783871629747762000000000)),
  (625000000000000000, 1875000000000000000, 5625000000000000000, (-19783871629747762000000000))]

/-- `IntegrationTypeTetrahedron.cpp:688-737`, part of the block commented `order 15` -/
def tetrahedron11_3 : List (ℤ × ℤ × ℤ × ℤ) := [
  (625000000000000000, 3125000000000000000, 4375000000000000000, (-19783871629747762000000000)),
  (625000000000000000, 4375000000000000000, 3125000000000000000, (-19783871629747762000000000)),
  (625000000000000000, 5625000000000000000, 1875000000000000000, (-19783871629747762000000000)),
  (625000000000000000, 6875000000000000000, 625000000000000000, (-19783871629747762000000000)),
  (1875000000000000000, 625000000000000000, 5625000000000000000, (-19783871629747762000000000)),
  (1875000000000000000, 1875000000000000000, 4375000000000000000, (-19783871629747762000000000)),
  (1875000000000000000, 3125000000000000000, 3125000000000000000, (-19783871629747762000000000)),
  (1875000000000000000, 4375000000000000000, 1875000000000000000, (-19783871629747762000000000)),
  (1875000000000000000, 5625000000000000000, 625000000000000000, (-19783871629747762000000000)),
  (3125000000000000000, 625000000000000000, 4375000000000000000, (-19783871629747762000000000)),
  (3125000000000000000, 1875000000000000000, 3125000000000000000, (-19783871629747762000000000)),
  (3125000000000000000, 3125000000000000000, 1875000000000000000, (-19783871629747762000000000)),
  (3125000000000000000, 4375000000000000000, 625000000000000000, (-19783871629747762000000000)),
  (4375000000000000000, 625000000000000000, 3125000000000000000, (-19783871629747762000000000)),
  (4375000000000000000, 1875000000000000000, 1875000000000000000, (-19783871629747762000000000)),
  (4375000000000000000, 3125000000000000000, 625000000000000000, (-19783871629747762000000000)),
  (5625000000000000000, 625000000000000000, 1875000000000000000, (-19783871629747762000000000)),
  (5625000000000000000, 1875000000000000000, 625000000000000000, (-19783871629747762000000000)),
  (6875000000000000000, 625000000000000000, 625000000000000000, (-19783871629747762000000000)),
  (625000000000000000, 625000000000000000, 5625000000000000000, (-19783871629747762000000000)),
  (625000000000000000, 1875000000000000000, 4375000000000000000, (-19783871629747762000000000)),
  (625000000000000000, 3125000000000000000, 3125000000000000000, (-19783871629747762000000000)),
  (625000000000000000, 4375000000000000000, 1875000000000000000, (-19783871629747762000000000)),
  (625000000000000000, 5625000000000000000, 625000000000000000, (-19783871629747762000000000)),
  (1875000000000000000, 625000000000000000, 4375000000000000000, (-19783871629747762000000000)),
  (1875000000000000000, 1875000000000000000, 3125000000000000000, (-19783871629747762000000000)),
  (1875000000000000000, 3125000000000000000, 1875000000000000000, (-19783871629747762000000000)),
  (1875000000000000000, 4375000000000000000, 625000000000000000, (-19783871629747762000000000)),
  (3125000000000000000, 625000000000000000, 3125000000000000000, (-19783871629747762000000000)),
  (3125000000000000000, 1875000000000000000, 1875000000000000000, (-19783871629747762000000000)),
  (3125000000000000000, 3125000000000000000, 625000000000000000, (-19783871629747762000000000)),
  (4375000000000000000, 625000000000000000, 1875000000000000000, (-19783871629747762000000000)),
  (4375000000000000000, 1875000000000000000, 625000000000000000, (-19783871629747762000000000)),
  (5625000000000000000, 625000000000000000, 625000000000000000, (-19783871629747762000000000)),
  (625000000000000000, 625000000000000000, 4375000000000000000, (-19783871629747762000000000)),
  (625000000000000000, 1875000000000000000, 3125000000000000000, (-19783871629747762000000000)),
  (625000000000000000, 3125000000000000000, 1875000000000000000, (-19783871629747762000000000)),
  (625000000000000000, 4375000000000000000, 625000000000000000, (-19783871629747762000000000)),
  (1875000000000000000, 625000000000000000, 3125000000000000000, (-19783871629747762000000000)),
  (1875000000000000000, 1875000000000000000, 1875000000000000000, (-19783871629747762000000000)),
  (1875000000000000000, 3125000000000000000, 625000000000000000, (-19783871629747762000000000)),
  (3125000000000000000, 625000000000000000, 1875000000000000000, (-19783871629747762000000000)),
  (3125000000000000000, 1875000000000000000, 625000000000000000, (-19783871629747762000000000)),
  (4375000000000000000, 625000000000000000, 625000000000000000, (-19783871629747762000000000)),
  (625000000000000000, 625000000000000000, 3125000000000000000, (-19783871629747762000000000)),
  (625000000000000000, 1875000000000000000, 1875000000000000000, (-19783871629747762000000000)),
  (625000000000000000, 3125000000000000000, 625000000000000000, (-19783871629747762000000000)),
  (1875000000000000000, 625000000000000000, 1875000000000000000, (-19783871629747762000000000)),
  (1875000000000000000, 1875000000000000000, 625000000000000000, (-19783871629747762000000000)),
  (3125000000000000000, 625000000000000000, 625000000000000000, (-19783871629747762000000000))]

/-- `IntegrationTypeTetrahedron.cpp:738-787`, part of the block commented `order 15` -/
def tetrahedron11_4 : List (ℤ × ℤ × ℤ × ℤ) := [
  (625000000000000000, 625000000000000000, 1875000000000000000, (-19783871629747762000000000)),
  (625000000000000000, 1875000000000000000, 625000000000000000, (-19783871629747762000000000)),
  (1875000000000000000, 625000000000000000, 625000000000000000, (-19783871629747762000000000)),
  (625000000000000000, 625000000000000000, 625000000000000000, (-19783871629747762000000000)),
  (714285714285715080, 714285714285715080, 7857142857142854800, 22690862620887400000000000),
  (714285714285715080, 2142857142857145200, 6428571428571430200, 22690862620887400000000000),
  (714285714285715080, 3571428571428569800, 5000000000000000000, 22690862620887400000000000),
  (714285714285715080, 5000000000000000000, 3571428571428569800, 22690862620887400000000000),
  (714285714285715080, 6428571428571430200, 2142857142857145200, 22690862620887400000000000),
  (714285714285715080, 7857142857142854800, 714285714285715080, 22690862620887400000000000),
  (2142857142857145200, 714285714285715080, 6428571428571430200, 22690862620887400000000000),
  (2142857142857145200, 2142857142857145200, 5000000000000000000, 22690862620887400000000000),
  (2142857142857145200, 3571428571428569800, 3571428571428569800, 22690862620887400000000000),
  (2142857142857145200, 5000000000000000000, 2142857142857145200, 22690862620887400000000000),
  (2142857142857145200, 6428571428571430200, 714285714285715080, 22690862620887400000000000),
  (3571428571428569800, 714285714285715080, 5000000000000000000, 22690862620887400000000000),
  (3571428571428569800, 2142857142857145200, 3571428571428569800, 22690862620887400000000000),
  (3571428571428569800, 3571428571428569800, 2142857142857145200, 22690862620887400000000000),
  (3571428571428569800, 5000000000000000000, 714285714285715080, 22690862620887400000000000),
  (5000000000000000000, 714285714285715080, 3571428571428569800, 22690862620887400000000000),
  (5000000000000000000, 2142857142857145200, 2142857142857145200, 22690862620887400000000000),
  (5000000000000000000, 3571428571428569800, 714285714285715080, 22690862620887400000000000),
  (6428571428571430200, 714285714285715080, 2142857142857145200, 22690862620887400000000000),
  (6428571428571430200, 2142857142857145200, 714285714285715080, 22690862620887400000000000),
  (7857142857142854800, 714285714285715080, 714285714285715080, 22690862620887400000000000),
  (714285714285715080, 714285714285715080, 6428571428571430200, 22690862620887400000000000),
  (714285714285715080, 2142857142857145200, 5000000000000000000, 22690862620887400000000000),
  (714285714285715080, 3571428571428569800, 3571428571428569800, 22690862620887400000000000),
  (714285714285715080, 5000000000000000000, 2142857142857145200, 22690862620887400000000000),
  (714285714285715080, 6428571428571430200, 714285714285715080, 22690862620887400000000000),
  (2142857142857145200, 714285714285715080, 5000000000000000000, 22690862620887400000000000),
  (2142857142857145200, 2142857142857145200, 3571428571428569800, 22690862620887400000000000),
  (2142857142857145200, 3571428571428569800, 2142857142857145200, 22690862620887400000000000),
  (2142857142857145200, 5000000000000000000, 714285714285715080, 22690862620887400000000000),
  (3571428571428569800, 714285714285715080, 3571428571428569800, 22690862620887400000000000),
  (3571428571428569800, 2142857142857145200, 2142857142857145200, 22690862620887400000000000),
  (3571428571428569800, 3571428571428569800, 714285714285715080, 22690862620887400000000000),
  (5000000000000000000, 714285714285715080, 2142857142857145200, 22690862620887400000000000),
  (5000000000000000000, 2142857142857145200, 714285714285715080, 22690862620887400000000000),
  (6428571428571430200, 714285714285715080, 714285714285715080, 22690862620887400000000000),
  (714285714285715080, 714285714285715080, 5000000000000000000, 22690862620887400000000000),
  (714285714285715080, 2142857142857145200, 3571428571428569800, 22690862620887400000000000),
  (714285714285715080, 3571428571428569800, 2142857142857145200, 22690862620887400000000000),
  (714285714285715080, 5000000000000000000, 714285714285715080, 22690862620887400000000000),
  (2142857142857145200, 714285714285715080, 3571428571428569800, 22690862620887400000000000),
  (2142857142857145200, 2142857142857145200, 2142857142857145200, 22690862620887400000000000),
  (2142857142857145200, 3571428571428569800, 714285714285715080, 22690862620887400000000000),
  (3571428571428569800, 714285714285715080, 2142857142857145200, 22690862620887400000000000),
  (3571428571428569800, 2142857142857145200, 714285714285715080, 22690862620887400000000000),
  (5000000000000000000, 714285714285715080, 714285714285715080, 22690862620887400000000000)]

/-- `IntegrationTypeTetrahedron.cpp:788-837`, part of the block commented `order 15` -/
def tetrahedron11_5 : List (ℤ × ℤ × ℤ × ℤ) := [
  (714285714285715080, 714285714285715080, 3571428571428569800, 22690862620887400000000000),
  (714285714285715080, 2142857142857145200, 2142857142857145200, 22690862620887400000000000),
  (714285714285715080, 3571428571428569800, 714285714285715080, 22690862620887400000000000),
  (2142857142857145200, 714285714285715080, 2142857142857145200, 22690862620887400000000000),
  (2142857142857145200, 2142857142857145200, 714285714285715080, 22690862620887400000000000),
  (3571428571428569800, 714285714285715080, 714285714285715080, 22690862620887400000000000),
  (714285714285715080, 714285714285715080, 2142857142857145200, 22690862620887400000000000),
  (714285714285715080, 2142857142857145200, 714285714285715080, 22690862620887400000000000),
  (2142857142857145200, 714285714285715080, 714285714285715080, 22690862620887400000000000),
  (714285714285715080, 714285714285715080, 714285714285715080, 22690862620887400000000000),
  (833333333333334810, 833333333333334810, 7500000000000000000, (-11985271870986162000000000)),
  (833333333333334810, 2500000000000000000, 5833333333333334800, (-11985271870986162000000000)),
  (833333333333334810, 4166666666666665200, 4166666666666665200, (-11985271870986162000000000)),
  (833333333333334810, 5833333333333334800, 2500000000000000000, (-11985271870986162000000000)),
  (833333333333334810, 7500000000000000000, 833333333333334810, (-11985271870986162000000000)),
  (2500000000000000000, 833333333333334810, 5833333333333334800, (-11985271870986162000000000)),
  (2500000000000000000, 2500000000000000000, 4166666666666665200, (-11985271870986162000000000)),
  (2500000000000000000, 4166666666666665200, 2500000000000000000, (-11985271870986162000000000)),
  (2500000000000000000, 5833333333333334800, 833333333333334810, (-11985271870986162000000000)),
  (4166666666666665200, 833333333333334810, 4166666666666665200, (-11985271870986162000000000)),
  (4166666666666665200, 2500000000000000000, 2500000000000000000, (-11985271870986162000000000)),
  (4166666666666665200, 4166666666666665200, 833333333333334810, (-11985271870986162000000000)),
  (5833333333333334800, 833333333333334810, 2500000000000000000, (-11985271870986162000000000)),
  (5833333333333334800, 2500000000000000000, 833333333333334810, (-11985271870986162000000000)),
  (7500000000000000000, 833333333333334810, 833333333333334810, (-11985271870986162000000000)),
  (833333333333334810, 833333333333334810, 5833333333333334800, (-11985271870986162000000000)),
  (833333333333334810, 2500000000000000000, 4166666666666665200, (-11985271870986162000000000)),
  (833333333333334810, 4166666666666665200, 2500000000000000000, (-11985271870986162000000000)),
  (833333333333334810, 5833333333333334800, 833333333333334810, (-11985271870986162000000000)),
  (2500000000000000000, 833333333333334810, 4166666666666665200, (-11985271870986162000000000)),
  (2500000000000000000, 2500000000000000000, 2500000000000000000, (-11985271870986162000000000)),
  (2500000000000000000, 4166666666666665200, 833333333333334810, (-11985271870986162000000000)),
  (4166666666666665200, 833333333333334810, 2500000000000000000, (-11985271870986162000000000)),
  (4166666666666665200, 2500000000000000000, 833333333333334810, (-11985271870986162000000000)),
  (5833333333333334800, 833333333333334810, 833333333333334810, (-11985271870986162000000000)),
  (833333333333334810, 833333333333334810, 4166666666666665200, (-11985271870986162000000000)),
  (833333333333334810, 2500000000000000000, 2500000000000000000, (-11985271870986162000000000)),
  (833333333333334810, 4166666666666665200, 833333333333334810, (-11985271870986162000000000)),
  (2500000000000000000, 833333333333334810, 2500000000000000000, (-11985271870986162000000000)),
  (2500000000000000000, 2500000000000000000, 833333333333334810, (-11985271870986162000000000)),
  (4166666666666665200, 833333333333334810, 833333333333334810, (-11985271870986162000000000)),
  (833333333333334810, 833333333333334810, 2500000000000000000, (-11985271870986162000000000)),
  (833333333333334810, 2500000000000000000, 833333333333334810, (-11985271870986162000000000)),
  (2500000000000000000, 833333333333334810, 833333333333334810, (-11985271870986162000000000)),
  (833333333333334810, 833333333333334810, 833333333333334810, (-11985271870986162000000000)),
  (999999999999999780, 999999999999999780, 6999999999999999600, 2917161457755974900000000),
  (999999999999999780, 2999999999999999900, 5000000000000000000, 2917161457755974900000000),
  (999999999999999780, 5000000000000000000, 2999999999999999900, 2917161457755974900000000),
  (999999999999999780, 6999999999999999600, 999999999999999780, 2917161457755974900000000),
  (2999999999999999900, 999999999999999780, 5000000000000000000, 2917161457755974900000000)]

/-- `IntegrationTypeTetrahedron.cpp:838-867`, part of the block commented `order 15` -/
def tetrahedron11_6 : List (ℤ × ℤ × ℤ × ℤ) := [
  (2999999999999999900, 2999999999999999900, 2999999999999999900, 2917161457755974900000000),
  (2999999999999999900, 5000000000000000000, 999999999999999780, 2917161457755974900000000),
  (5000000000000000000, 999999999999999780, 2999999999999999900, 2917161457755974900000000),
  (5000000000000000000, 2999999999999999900, 999999999999999780, 2917161457755974900000000),
  (6999999999999999600, 999999999999999780, 999999999999999780, 2917161457755974900000000),
  (999999999999999780, 999999999999999780, 5000000000000000000, 2917161457755974900000000),
  (999999999999999780, 2999999999999999900, 2999999999999999900, 2917161457755974900000000),
  (999999999999999780, 5000000000000000000, 999999999999999780, 2917161457755974900000000),
  (2999999999999999900, 999999999999999780, 2999999999999999900, 2917161457755974900000000),
  (2999999999999999900, 2999999999999999900, 999999999999999780, 2917161457755974900000000),
  (5000000000000000000, 999999999999999780, 999999999999999780, 2917161457755974900000000),
  (999999999999999780, 999999999999999780, 2999999999999999900, 2917161457755974900000000),
  (999999999999999780, 2999999999999999900, 999999999999999780, 2917161457755974900000000),
  (2999999999999999900, 999999999999999780, 999999999999999780, 2917161457755974900000000),
  (999999999999999780, 999999999999999780, 999999999999999780, 2917161457755974900000000),
  (1250000000000000000, 1250000000000000000, 6250000000000000000, (-287387783684074980000000)),
  (1250000000000000000, 3750000000000000000, 3750000000000000000, (-287387783684074980000000)),
  (1250000000000000000, 6250000000000000000, 1250000000000000000, (-287387783684074980000000)),
  (3750000000000000000, 1250000000000000000, 3750000000000000000, (-287387783684074980000000)),
  (3750000000000000000, 3750000000000000000, 1250000000000000000, (-287387783684074980000000)),
  (6250000000000000000, 1250000000000000000, 1250000000000000000, (-287387783684074980000000)),
  (1250000000000000000, 1250000000000000000, 3750000000000000000, (-287387783684074980000000)),
  (1250000000000000000, 3750000000000000000, 1250000000000000000, (-287387783684074980000000)),
  (3750000000000000000, 1250000000000000000, 1250000000000000000, (-287387783684074980000000)),
  (1250000000000000000, 1250000000000000000, 1250000000000000000, (-287387783684074980000000)),
  (1666666666666665200, 1666666666666665200, 5000000000000000000, 8321073457787499300000),
  (1666666666666665200, 5000000000000000000, 1666666666666665200, 8321073457787499300000),
  (5000000000000000000, 1666666666666665200, 1666666666666665200, 8321073457787499300000),
  (1666666666666665200, 1666666666666665200, 1666666666666665200, 8321073457787499300000),
  (2500000000000000000, 2500000000000000000, 2500000000000000000, (-32575693949999999000))]

/-- `IntegrationTypeTetrahedron.cpp:537-867`, commented `order 15` -/
def tetrahedron11 : List (ℤ × ℤ × ℤ × ℤ) :=
  tetrahedron11_0 ++ (tetrahedron11_1 ++ (tetrahedron11_2 ++ (tetrahedron11_3 ++ (tetrahedron11_4 ++ (tetrahedron11_5 ++ (tetrahedron11_6))))))

/-- `IntegrationTypeTetrahedron.cpp:869-918`, part of the block commented `order 17` -/
def tetrahedron12_0 : List (ℤ × ℤ × ℤ × ℤ) := [
  (499999999999999890, 499999999999999890, 8499999999999999800, 8220635246624324900000000),
  (499999999999999890, 1500000000000000200, 7500000000000000000, 8220635246624324900000000),
  (499999999999999890, 2500000000000000000, 6500000000000000200, 8220635246624324900000000),
  (499999999999999890, 3499999999999999800, 5500000000000000400, 8220635246624324900000000),
  (499999999999999890, 4500000000000000100, 4500000000000000100, 8220635246624324900000000),
  (499999999999999890, 5500000000000000400, 3499999999999999800, 8220635246624324900000000),
  (499999999999999890, 6500000000000000200, 2500000000000000000, 8220635246624324900000000),
  (499999999999999890, 7500000000000000000, 1500000000000000200, 8220635246624324900000000),
  (499999999999999890, 8499999999999999800, 499999999999999890, 8220635246624324900000000),
  (1500000000000000200, 499999999999999890, 7500000000000000000, 8220635246624324900000000),
  (1500000000000000200, 1500000000000000200, 6500000000000000200, 8220635246624324900000000),
  (1500000000000000200, 2500000000000000000, 5500000000000000400, 8220635246624324900000000),
  (1500000000000000200, 3499999999999999800, 4500000000000000100, 8220635246624324900000000),
  (1500000000000000200, 4500000000000000100, 3499999999999999800, 8220635246624324900000000),
  (1500000000000000200, 5500000000000000400, 2500000000000000000, 8220635246624324900000000),
  (1500000000000000200, 6500000000000000200, 1500000000000000200, 8220635246624324900000000),
  (1500000000000000200, 7500000000000000000, 499999999999999890, 8220635246624324900000000),
  (2500000000000000000, 499999999999999890, 6500000000000000200, 8220635246624324900000000),
  (2500000000000000000, 1500000000000000200, 5500000000000000400, 8220635246624324900000000),
  (2500000000000000000, 2500000000000000000, 4500000000000000100, 8220635246624324900000000),
  (2500000000000000000, 3499999999999999800, 3499999999999999800, 8220635246624324900000000),
  (2500000000000000000, 4500000000000000100, 2500000000000000000, 8220635246624324900000000),
  (2500000000000000000, 5500000000000000400, 1500000000000000200, 8220635246624324900000000),
  (2500000000000000000, 6500000000000000200, 499999999999999890, 8220635246624324900000000),
  (3499999999999999800, 499999999999999890, 5500000000000000400, 8220635246624324900000000),
  (3499999999999999800, 1500000000000000200, 4500000000000000100, 8220635246624324900000000),
  (3499999999999999800, 2500000000000000000, 3499999999999999800, 8220635246624324900000000),
  (3499999999999999800, 3499999999999999800, 2500000000000000000, 8220635246624324900000000),
  (3499999999999999800, 4500000000000000100, 1500000000000000200, 8220635246624324900000000),
  (3499999999999999800, 5500000000000000400, 499999999999999890, 8220635246624324900000000),
  (4500000000000000100, 499999999999999890, 4500000000000000100, 8220635246624324900000000),
  (4500000000000000100, 1500000000000000200, 3499999999999999800, 8220635246624324900000000),
  (4500000000000000100, 2500000000000000000, 2500000000000000000, 8220635246624324900000000),
  (4500000000000000100, 3499999999999999800, 1500000000000000200, 8220635246624324900000000),
  (4500000000000000100, 4500000000000000100, 499999999999999890, 8220635246624324900000000),
  (5500000000000000400, 499999999999999890, 3499999999999999800, 8220635246624324900000000),
  (5500000000000000400, 1500000000000000200, 2500000000000000000, 8220635246624324900000000),
  (5500000000000000400, 2500000000000000000, 1500000000000000200, 8220635246624324900000000),
  (5500000000000000400, 3499999999999999800, 499999999999999890, 8220635246624324900000000),
  (6500000000000000200, 499999999999999890, 2500000000000000000, 8220635246624324900000000),
  (6500000000000000200, 1500000000000000200, 1500000000000000200, 8220635246624324900000000),
  (6500000000000000200, 2500000000000000000, 499999999999999890, 8220635246624324900000000),
  (7500000000000000000, 499999999999999890, 1500000000000000200, 8220635246624324900000000),
  (7500000000000000000, 1500000000000000200, 499999999999999890, 8220635246624324900000000),
  (8499999999999999800, 499999999999999890, 499999999999999890, 8220635246624324900000000),
  (499999999999999890, 499999999999999890, 7500000000000000000, 8220635246624324900000000),
  (499999999999999890, 1500000000000000200, 6500000000000000200, 8220635246624324900000000),
  (499999999999999890, 2500000000000000000, 5500000000000000400, 8220635246624324900000000),
  (499999999999999890, 3499999999999999800, 4500000000000000100, 8220635246624324900000000),
  (499999999999999890, 4500000000000000100, 3499999999999999800, 8220635246624324900000000)]

/-- `IntegrationTypeTetrahedron.cpp:919-968`, part of the block commented `order 17` -/
def tetrahedron12_1 : List (ℤ × ℤ × ℤ × ℤ) := [
  (499999999999999890, 5500000000000000400, 2500000000000000000, 8220635246624324900000000),
  (499999999999999890, 6500000000000000200, 1500000000000000200, 8220635246624324900000000),
  (499999999999999890, 7500000000000000000, 499999999999999890, 8220635246624324900000000),
  (1500000000000000200, 499999999999999890, 6500000000000000200, 8220635246624324900000000),
  (1500000000000000200, 1500000000000000200, 5500000000000000400, 8220635246624324900000000),
  (1500000000000000200, 2500000000000000000, 4500000000000000100, 8220635246624324900000000),
  (1500000000000000200, 3499999999999999800, 3499999999999999800, 8220635246624324900000000),
  (1500000000000000200, 4500000000000000100, 2500000000000000000, 8220635246624324900000000),
  (1500000000000000200, 5500000000000000400, 1500000000000000200, 8220635246624324900000000),
  (1500000000000000200, 6500000000000000200, 499999999999999890, 8220635246624324900000000),
  (2500000000000000000, 499999999999999890, 5500000000000000400, 8220635246624324900000000),
  (2500000000000000000, 1500000000000000200, 4500000000000000100, 8220635246624324900000000),
  (2500000000000000000, 2500000000000000000, 3499999999999999800, 8220635246624324900000000),
  (2500000000000000000, 3499999999999999800, 2500000000000000000, 8220635246624324900000000),
  (2500000000000000000, 4500000000000000100, 1500000000000000200, 8220635246624324900000000),
  (2500000000000000000, 5500000000000000400, 499999999999999890, 8220635246624324900000000),
  (3499999999999999800, 499999999999999890, 4500000000000000100, 8220635246624324900000000),
  (3499999999999999800, 1500000000000000200, 3499999999999999800, 8220635246624324900000000),
  (3499999999999999800, 2500000000000000000, 2500000000000000000, 8220635246624324900000000),
  (3499999999999999800, 3499999999999999800, 1500000000000000200, 8220635246624324900000000),
  (3499999999999999800, 4500000000000000100, 499999999999999890, 8220635246624324900000000),
  (4500000000000000100, 499999999999999890, 3499999999999999800, 8220635246624324900000000),
  (4500000000000000100, 1500000000000000200, 2500000000000000000, 8220635246624324900000000),
  (4500000000000000100, 2500000000000000000, 1500000000000000200, 8220635246624324900000000),
  (4500000000000000100, 3499999999999999800, 499999999999999890, 8220635246624324900000000),
  (5500000000000000400, 499999999999999890, 2500000000000000000, 8220635246624324900000000),
  (5500000000000000400, 1500000000000000200, 1500000000000000200, 8220635246624324900000000),
  (5500000000000000400, 2500000000000000000, 499999999999999890, 8220635246624324900000000),
  (6500000000000000200, 499999999999999890, 1500000000000000200, 8220635246624324900000000),
  (6500000000000000200, 1500000000000000200, 499999999999999890, 8220635246624324900000000),
  (7500000000000000000, 499999999999999890, 499999999999999890, 8220635246624324900000000),
  (499999999999999890, 499999999999999890, 6500000000000000200, 8220635246624324900000000),
  (499999999999999890, 1500000000000000200, 5500000000000000400, 8220635246624324900000000),
  (499999999999999890, 2500000000000000000, 4500000000000000100, 8220635246624324900000000),
  (499999999999999890, 3499999999999999800, 3499999999999999800, 8220635246624324900000000),
  (499999999999999890, 4500000000000000100, 2500000000000000000, 8220635246624324900000000),
  (499999999999999890, 5500000000000000400, 1500000000000000200, 8220635246624324900000000),
  (499999999999999890, 6500000000000000200, 499999999999999890, 8220635246624324900000000),
  (1500000000000000200, 499999999999999890, 5500000000000000400, 8220635246624324900000000),
  (1500000000000000200, 1500000000000000200, 4500000000000000100, 8220635246624324900000000),
  (1500000000000000200, 2500000000000000000, 3499999999999999800, 8220635246624324900000000),
  (1500000000000000200, 3499999999999999800, 2500000000000000000, 8220635246624324900000000),
  (1500000000000000200, 4500000000000000100, 1500000000000000200, 8220635246624324900000000),
  (1500000000000000200, 5500000000000000400, 499999999999999890, 8220635246624324900000000),
  (2500000000000000000, 499999999999999890, 4500000000000000100, 8220635246624324900000000),
  (2500000000000000000, 1500000000000000200, 3499999999999999800, 8220635246624324900000000),
  (2500000000000000000, 2500000000000000000, 2500000000000000000, 8220635246624324900000000),
  (2500000000000000000, 3499999999999999800, 1500000000000000200, 8220635246624324900000000),
  (2500000000000000000, 4500000000000000100, 499999999999999890, 8220635246624324900000000),
  (3499999999999999800, 499999999999999890, 3499999999999999800, 8220635246624324900000000)]

/-- `IntegrationTypeTetrahedron.cpp:969-1018`, part of the block commented `order 17` -/
def tetrahedron12_2 : List (ℤ × ℤ × ℤ × ℤ) := [
  (3499999999999999800, 1500000000000000200, 2500000000000000000, 8220635246624324900000000),
  (3499999999999999800, 2500000000000000000, 1500000000000000200, 8220635246624324900000000),
  (3499999999999999800, 3499999999999999800, 499999999999999890, 8220635246624324900000000),
  (4500000000000000100, 499999999999999890, 2500000000000000000, 8220635246624324900000000),
  (4500000000000000100, 1500000000000000200, 1500000000000000200, 8220635246624324900000000),
  (4500000000000000100, 2500000000000000000, 499999999999999890, 8220635246624324900000000),
  (5500000000000000400, 499999999999999890, 1500000000000000200, 8220635246624324900000000),
  (5500000000000000400, 1500000000000000200, 499999999999999890, 8220635246624324900000000),
  (6500000000000000200, 499999999999999890, 499999999999999890, 8220635246624324900000000),
  (499999999999999890, 499999999999999890, 5500000000000000400, 8220635246624324900000000),
  (499999999999999890, 1500000000000000200, 4500000000000000100, 8220635246624324900000000),
  (499999999999999890, 2500000000000000000, 3499999999999999800, 8220635246624324900000000),
  (499999999999999890, 3499999999999999800, 2500000000000000000, 8220635246624324900000000),
  (499999999999999890, 4500000000000000100, 1500000000000000200, 8220635246624324900000000),
  (499999999999999890, 5500000000000000400, 499999999999999890, 8220635246624324900000000),
  (1500000000000000200, 499999999999999890, 4500000000000000100, 8220635246624324900000000),
  (1500000000000000200, 1500000000000000200, 3499999999999999800, 8220635246624324900000000),
  (1500000000000000200, 2500000000000000000, 2500000000000000000, 8220635246624324900000000),
  (1500000000000000200, 3499999999999999800, 1500000000000000200, 8220635246624324900000000),
  (1500000000000000200, 4500000000000000100, 499999999999999890, 8220635246624324900000000),
  (2500000000000000000, 499999999999999890, 3499999999999999800, 8220635246624324900000000),
  (2500000000000000000, 1500000000000000200, 2500000000000000000, 8220635246624324900000000),
  (2500000000000000000, 2500000000000000000, 1500000000000000200, 8220635246624324900000000),
  (2500000000000000000, 3499999999999999800, 499999999999999890, 8220635246624324900000000),
  (3499999999999999800, 499999999999999890, 2500000000000000000, 8220635246624324900000000),
  (3499999999999999800, 1500000000000000200, 1500000000000000200, 8220635246624324900000000),
  (3499999999999999800, 2500000000000000000, 499999999999999890, 8220635246624324900000000),
  (4500000000000000100, 499999999999999890, 1500000000000000200, 8220635246624324900000000),
  (4500000000000000100, 1500000000000000200, 499999999999999890, 8220635246624324900000000),
  (5500000000000000400, 499999999999999890, 499999999999999890, 8220635246624324900000000),
  (499999999999999890, 499999999999999890, 4500000000000000100, 8220635246624324900000000),
  (499999999999999890, 1500000000000000200, 3499999999999999800, 8220635246624324900000000),
  (499999999999999890, 2500000000000000000, 2500000000000000000, 8220635246624324900000000),
  (499999999999999890, 3499999999999999800, 1500000000000000200, 8220635246624324900000000),
  (499999999999999890, 4500000000000000100, 499999999999999890, 8220635246624324900000000),
  (1500000000000000200, 499999999999999890, 3499999999999999800, 8220635246624324900000000),
  (1500000000000000200, 1500000000000000200, 2500000000000000000, 8220635246624324900000000),
  (1500000000000000200, 2500000000000000000, 1500000000000000200, 8220635246624324900000000),
  (1500000000000000200, 3499999999999999800, 499999999999999890, 8220635246624324900000000),
  (2500000000000000000, 499999999999999890, 2500000000000000000, 8220635246624324900000000),
  (2500000000000000000, 1500000000000000200, 1500000000000000200, 8220635246624324900000000),
  (2500000000000000000, 2500000000000000000, 499999999999999890, 8220635246624324900000000),
  (3499999999999999800, 499999999999999890, 1500000000000000200, 8220635246624324900000000),
  (3499999999999999800, 1500000000000000200, 499999999999999890, 8220635246624324900000000),
  (4500000000000000100, 499999999999999890, 499999999999999890, 8220635246624324900000000),
  (499999999999999890, 499999999999999890, 3499999999999999800, 8220635246624324900000000),
  (499999999999999890, 1500000000000000200, 2500000000000000000, 8220635246624324900000000),
  (499999999999999890, 2500000000000000000, 1500000000000000200, 8220635246624324900000000),
  (499999999999999890, 3499999999999999800, 499999999999999890, 8220635246624324900000000),
  (1500000000000000200, 499999999999999890, 2500000000000000000, 8220635246624324900000000)]

/-- `IntegrationTypeTetrahedron.cpp:1019-1068`, part of the block commented `order 17` -/
def tetrahedron12_3 : List (ℤ × ℤ × ℤ × ℤ) := [
  (1500000000000000200, 1500000000000000200, 1500000000000000200, 8220635246624324900000000),
  (1500000000000000200, 2500000000000000000, 499999999999999890, 8220635246624324900000000),
  (2500000000000000000, 499999999999999890, 1500000000000000200, 8220635246624324900000000),
  (2500000000000000000, 1500000000000000200, 499999999999999890, 8220635246624324900000000),
  (3499999999999999800, 499999999999999890, 499999999999999890, 8220635246624324900000000),
  (499999999999999890, 499999999999999890, 2500000000000000000, 8220635246624324900000000),
  (499999999999999890, 1500000000000000200, 1500000000000000200, 8220635246624324900000000),
  (499999999999999890, 2500000000000000000, 499999999999999890, 8220635246624324900000000),
  (1500000000000000200, 499999999999999890, 1500000000000000200, 8220635246624324900000000),
  (1500000000000000200, 1500000000000000200, 499999999999999890, 8220635246624324900000000),
  (2500000000000000000, 499999999999999890, 499999999999999890, 8220635246624324900000000),
  (499999999999999890, 499999999999999890, 1500000000000000200, 8220635246624324900000000),
  (499999999999999890, 1500000000000000200, 499999999999999890, 8220635246624324900000000),
  (1500000000000000200, 499999999999999890, 499999999999999890, 8220635246624324900000000),
  (499999999999999890, 499999999999999890, 499999999999999890, 8220635246624324900000000),
  (555555555555555250, 555555555555555250, 8333333333333334800, (-27419405538927449000000000)),
  (555555555555555250, 1666666666666665200, 7222222222222219900, (-27419405538927449000000000)),
  (555555555555555250, 2777777777777780100, 6111111111111109400, (-27419405538927449000000000)),
  (555555555555555250, 3888888888888890100, 5000000000000000000, (-27419405538927449000000000)),
  (555555555555555250, 5000000000000000000, 3888888888888890100, (-27419405538927449000000000)),
  (555555555555555250, 6111111111111109400, 2777777777777780100, (-27419405538927449000000000)),
  (555555555555555250, 7222222222222219900, 1666666666666665200, (-27419405538927449000000000)),
  (555555555555555250, 8333333333333334800, 555555555555555250, (-27419405538927449000000000)),
  (1666666666666665200, 555555555555555250, 7222222222222219900, (-27419405538927449000000000)),
  (1666666666666665200, 1666666666666665200, 6111111111111109400, (-27419405538927449000000000)),
  (1666666666666665200, 2777777777777780100, 5000000000000000000, (-27419405538927449000000000)),
  (1666666666666665200, 3888888888888890100, 3888888888888890100, (-27419405538927449000000000)),
  (1666666666666665200, 5000000000000000000, 2777777777777780100, (-27419405538927449000000000)),
  (1666666666666665200, 6111111111111109400, 1666666666666665200, (-27419405538927449000000000)),
  (1666666666666665200, 7222222222222219900, 555555555555555250, (-27419405538927449000000000)),
  (2777777777777780100, 555555555555555250, 6111111111111109400, (-27419405538927449000000000)),
  (2777777777777780100, 1666666666666665200, 5000000000000000000, (-27419405538927449000000000)),
  (2777777777777780100, 2777777777777780100, 3888888888888890100, (-27419405538927449000000000)),
  (2777777777777780100, 3888888888888890100, 2777777777777780100, (-27419405538927449000000000)),
  (2777777777777780100, 5000000000000000000, 1666666666666665200, (-27419405538927449000000000)),
  (2777777777777780100, 6111111111111109400, 555555555555555250, (-27419405538927449000000000)),
  (3888888888888890100, 555555555555555250, 5000000000000000000, (-27419405538927449000000000)),
  (3888888888888890100, 1666666666666665200, 3888888888888890100, (-27419405538927449000000000)),
  (3888888888888890100, 2777777777777780100, 2777777777777780100, (-27419405538927449000000000)),
  (3888888888888890100, 3888888888888890100, 1666666666666665200, (-27419405538927449000000000)),
  (3888888888888890100, 5000000000000000000, 555555555555555250, (-27419405538927449000000000)),
  (5000000000000000000, 555555555555555250, 3888888888888890100, (-27419405538927449000000000)),
  (5000000000000000000, 1666666666666665200, 2777777777777780100, (-27419405538927449000000000)),
  (5000000000000000000, 2777777777777780100, 1666666666666665200, (-27419405538927449000000000)),
  (5000000000000000000, 3888888888888890100, 555555555555555250, (-27419405538927449000000000)),
  (6111111111111109400, 555555555555555250, 2777777777777780100, (-27419405538927449000000000)),
  (6111111111111109400, 1666666666666665200, 1666666666666665200, (-27419405538927449000000000)),
  (6111111111111109400, 2777777777777780100, 555555555555555250, (-27419405538927449000000000)),
  (7222222222222219900, 555555555555555250, 1666666666666665200, (-27419405538927449000000000)),
  (7222222222222219900, 1666666666666665200, 555555555555555250, (-27419405538927449000000000))]

/-- `IntegrationTypeTetrahedron.cpp:1069-1118`, part of the block commented `order 17` -/
def tetrahedron12_4 : List (ℤ × ℤ × ℤ × ℤ) := [
  (8333333333333334800, 555555555555555250, 555555555555555250, (-27419405538927449000000000)),
  (555555555555555250, 555555555555555250, 7222222222222219900, (-27419405538927449000000000)),
  (555555555555555250, 1666666666666665200, 6111111111111109400, (-27419405538927449000000000)),
  (555555555555555250, 2777777777777780100, 5000000000000000000, (-27419405538927449000000000)),
  (555555555555555250, 3888888888888890100, 3888888888888890100, (-27419405538927449000000000)),
  (555555555555555250, 5000000000000000000, 2777777777777780100, (-27419405538927449000000000)),
  (555555555555555250, 6111111111111109400, 1666666666666665200, (-27419405538927449000000000)),
  (555555555555555250, 7222222222222219900, 555555555555555250, (-27419405538927449000000000)),
  (1666666666666665200, 555555555555555250, 6111111111111109400, (-27419405538927449000000000)),
  (1666666666666665200, 1666666666666665200, 5000000000000000000, (-27419405538927449000000000)),
  (1666666666666665200, 2777777777777780100, 3888888888888890100, (-27419405538927449000000000)),
  (1666666666666665200, 3888888888888890100, 2777777777777780100, (-27419405538927449000000000)),
  (1666666666666665200, 5000000000000000000, 1666666666666665200, (-27419405538927449000000000)),
  (1666666666666665200, 6111111111111109400, 555555555555555250, (-27419405538927449000000000)),
  (2777777777777780100, 555555555555555250, 5000000000000000000, (-27419405538927449000000000)),
  (2777777777777780100, 1666666666666665200, 3888888888888890100, (-27419405538927449000000000)),
  (2777777777777780100, 2777777777777780100, 2777777777777780100, (-27419405538927449000000000)),
  (2777777777777780100, 3888888888888890100, 1666666666666665200, (-27419405538927449000000000)),
  (2777777777777780100, 5000000000000000000, 555555555555555250, (-27419405538927449000000000)),
  (3888888888888890100, 555555555555555250, 3888888888888890100, (-27419405538927449000000000)),
  (3888888888888890100, 1666666666666665200, 2777777777777780100, (-27419405538927449000000000)),
  (3888888888888890100, 2777777777777780100, 1666666666666665200, (-27419405538927449000000000)),
  (3888888888888890100, 3888888888888890100, 555555555555555250, (-27419405538927449000000000)),
  (5000000000000000000, 555555555555555250, 2777777777777780100, (-27419405538927449000000000)),
  (5000000000000000000, 1666666666666665200, 1666666666666665200, (-27419405538927449000000000)),
  (5000000000000000000, 2777777777777780100, 555555555555555250, (-27419405538927449000000000)),
  (6111111111111109400, 555555555555555250, 1666666666666665200, (-27419405538927449000000000)),
  (6111111111111109400, 1666666666666665200, 555555555555555250, (-27419405538927449000000000)),
  (7222222222222219900, 555555555555555250, 555555555555555250, (-27419405538927449000000000)),
  (555555555555555250, 555555555555555250, 6111111111111109400, (-27419405538927449000000000)),
  (555555555555555250, 1666666666666665200, 5000000000000000000, (-27419405538927449000000000)),
  (555555555555555250, 2777777777777780100, 3888888888888890100, (-27419405538927449000000000)),
  (555555555555555250, 3888888888888890100, 2777777777777780100, (-27419405538927449000000000)),
  (555555555555555250, 5000000000000000000, 1666666666666665200, (-27419405538927449000000000)),
  (555555555555555250, 6111111111111109400, 555555555555555250, (-27419405538927449000000000)),
  (1666666666666665200, 555555555555555250, 5000000000000000000, (-27419405538927449000000000)),
  (1666666666666665200, 1666666666666665200, 3888888888888890100, (-27419405538927449000000000)),
  (1666666666666665200, 2777777777777780100, 2777777777777780100, (-27419405538927449000000000)),
  (1666666666666665200, 3888888888888890100, 1666666666666665200, (-27419405538927449000000000)),
  (1666666666666665200, 5000000000000000000, 555555555555555250, (-27419405538927449000000000)),
  (2777777777777780100, 555555555555555250, 3888888888888890100, (-27419405538927449000000000)),
  (2777777777777780100, 1666666666666665200, 2777777777777780100, (-27419405538927449000000000)),
  (2777777777777780100, 2777777777777780100, 1666666666666665200, (-27419405538927449000000000)),
  (2777777777777780100, 3888888888888890100, 555555555555555250, (-27419405538927449000000000)),
  (3888888888888890100, 555555555555555250, 2777777777777780100, (-27419405538927449000000000)),
  (3888888888888890100, 1666666666666665200, 1666666666666665200, (-27419405538927449000000000)),
  (3888888888888890100, 2777777777777780100, 555555555555555250, (-27419405538927449000000000)),
  (5000000000000000000, 555555555555555250, 1666666666666665200, (-27419405538927449000000000)),
  (5000000000000000000, 1666666666666665200, 555555555555555250, (-27419405538927449000000000)),
  (6111111111111109400, 555555555555555250, 555555555555555250, (-27419405538927449000000000))]

/-- `IntegrationTypeTetrahedron.cpp:1119-1168`, part of the block commented `order 17` -/
def tetrahedron12_5 : List (ℤ × ℤ × ℤ × ℤ) := [
  (555555555555555250, 555555555555555250, 5000000000000000000, (-27419405538927449000000000)),
  (555555555555555250, 1666666666666665200, 3888888888888890100, (-27419405538927449000000000)),
  (555555555555555250, 2777777777777780100, 2777777777777780100, (-27419405538927449000000000)),
  (555555555555555250, 3888888888888890100, 1666666666666665200, (-27419405538927449000000000)),
  (555555555555555250, 5000000000000000000, 555555555555555250, (-27419405538927449000000000)),
  (1666666666666665200, 555555555555555250, 3888888888888890100, (-27419405538927449000000000)),
  (1666666666666665200, 1666666666666665200, 2777777777777780100, (-27419405538927449000000000)),
  (1666666666666665200, 2777777777777780100, 1666666666666665200, (-27419405538927449000000000)),
  (1666666666666665200, 3888888888888890100, 555555555555555250, (-27419405538927449000000000)),
  (2777777777777780100, 555555555555555250, 2777777777777780100, (-27419405538927449000000000)),
  (2777777777777780100, 1666666666666665200, 1666666666666665200, (-27419405538927449000000000)),
  (2777777777777780100, 2777777777777780100, 555555555555555250, (-27419405538927449000000000)),
  (3888888888888890100, 555555555555555250, 1666666666666665200, (-27419405538927449000000000)),
  (3888888888888890100, 1666666666666665200, 555555555555555250, (-27419405538927449000000000)),
  (5000000000000000000, 555555555555555250, 555555555555555250, (-27419405538927449000000000)),
  (555555555555555250, 555555555555555250, 3888888888888890100, (-27419405538927449000000000)),
  (555555555555555250, 1666666666666665200, 2777777777777780100, (-27419405538927449000000000)),
  (555555555555555250, 2777777777777780100, 1666666666666665200, (-27419405538927449000000000)),
  (555555555555555250, 3888888888888890100, 555555555555555250, (-27419405538927449000000000)),
  (1666666666666665200, 555555555555555250, 2777777777777780100, (-27419405538927449000000000)),
  (1666666666666665200, 1666666666666665200, 1666666666666665200, (-27419405538927449000000000)),
  (1666666666666665200, 2777777777777780100, 555555555555555250, (-27419405538927449000000000)),
  (2777777777777780100, 555555555555555250, 1666666666666665200, (-27419405538927449000000000)),
  (2777777777777780100, 1666666666666665200, 555555555555555250, (-27419405538927449000000000)),
  (3888888888888890100, 555555555555555250, 555555555555555250, (-27419405538927449000000000)),
  (555555555555555250, 555555555555555250, 2777777777777780100, (-27419405538927449000000000)),
  (555555555555555250, 1666666666666665200, 1666666666666665200, (-27419405538927449000000000)),
  (555555555555555250, 2777777777777780100, 555555555555555250, (-27419405538927449000000000)),
  (1666666666666665200, 555555555555555250, 1666666666666665200, (-27419405538927449000000000)),
  (1666666666666665200, 1666666666666665200, 555555555555555250, (-27419405538927449000000000)),
  (2777777777777780100, 555555555555555250, 555555555555555250, (-27419405538927449000000000)),
  (555555555555555250, 555555555555555250, 1666666666666665200, (-27419405538927449000000000)),
  (555555555555555250, 1666666666666665200, 555555555555555250, (-27419405538927449000000000)),
  (1666666666666665200, 555555555555555250, 555555555555555250, (-27419405538927449000000000)),
  (555555555555555250, 555555555555555250, 555555555555555250, (-27419405538927449000000000)),
  (625000000000000000, 625000000000000000, 8125000000000000000, 35171327341773789000000000),
  (625000000000000000, 1875000000000000000, 6875000000000000000, 35171327341773789000000000),
  (625000000000000000, 3125000000000000000, 5625000000000000000, 35171327341773789000000000),
  (625000000000000000, 4375000000000000000, 4375000000000000000, 35171327341773789000000000),
  (625000000000000000, 5625000000000000000, 3125000000000000000, 35171327341773789000000000),
  (625000000000000000, 6875000000000000000, 1875000000000000000, 35171327341773789000000000),
  (625000000000000000, 8125000000000000000, 625000000000000000, 35171327341773789000000000),
  (1875000000000000000, 625000000000000000, 6875000000000000000, 35171327341773789000000000),
  (1875000000000000000, 1875000000000000000, 5625000000000000000, 35171327341773789000000000),
  (1875000000000000000, 3125000000000000000, 4375000000000000000, 35171327341773789000000000),
  (1875000000000000000, 4375000000000000000, 3125000000000000000, 35171327341773789000000000),
  (1875000000000000000, 5625000000000000000, 1875000000000000000, 35171327341773789000000000),
  (1875000000000000000, 6875000000000000000, 625000000000000000, 35171327341773789000000000),
  (3125000000000000000, 625000000000000000, 5625000000000000000, 35171327341773789000000000),
  (3125000000000000000, 1875000000000000000, 4375000000000000000, 35171327341773789000000000)]

/-- `IntegrationTypeTetrahedron.cpp:1169-1218`, part of the block commented `order 17` -/
def tetrahedron12_6 : List (ℤ × ℤ × ℤ × ℤ) := [
  (3125000000000000000, 3125000000000000000, 3125000000000000000, 35171327341773789000000000),
  (3125000000000000000, 4375000000000000000, 1875000000000000000, 35171327341773789000000000),
  (3125000000000000000, 5625000000000000000, 625000000000000000, 35171327341773789000000000),
  (4375000000000000000, 625000000000000000, 4375000000000000000, 35171327341773789000000000),
  (4375000000000000000, 1875000000000000000, 3125000000000000000, 35171327341773789000000000),
  (4375000000000000000, 3125000000000000000, 1875000000000000000, 35171327341773789000000000),
  (4375000000000000000, 4375000000000000000, 625000000000000000, 35171327341773789000000000),
  (5625000000000000000, 625000000000000000, 3125000000000000000, 35171327341773789000000000),
  (5625000000000000000, 1875000000000000000, 1875000000000000000, 35171327341773789000000000),
  (5625000000000000000, 3125000000000000000, 625000000000000000, 35171327341773789000000000),
  (6875000000000000000, 625000000000000000, 1875000000000000000, 35171327341773789000000000),
  (6875000000000000000, 1875000000000000000, 625000000000000000, 35171327341773789000000000),
  (8125000000000000000, 625000000000000000, 625000000000000000, 35171327341773789000000000),
  (625000000000000000, 625000000000000000, 6875000000000000000, 35171327341773789000000000),
  (625000000000000000, 1875000000000000000, 5625000000000000000, 35171327341773789000000000),
  (625000000000000000, 3125000000000000000, 4375000000000000000, 35171327341773789000000000),
  (625000000000000000, 4375000000000000000, 3125000000000000000, 35171327341773789000000000),
  (625000000000000000, 5625000000000000000, 1875000000000000000, 35171327341773789000000000),
  (625000000000000000, 6875000000000000000, 625000000000000000, 35171327341773789000000000),
  (1875000000000000000, 625000000000000000, 5625000000000000000, 35171327341773789000000000),
  (1875000000000000000, 1875000000000000000, 4375000000000000000, 35171327341773789000000000),
  (1875000000000000000, 3125000000000000000, 3125000000000000000, 35171327341773789000000000),
  (1875000000000000000, 4375000000000000000, 1875000000000000000, 35171327341773789000000000),
  (1875000000000000000, 5625000000000000000, 625000000000000000, 35171327341773789000000000),
  (3125000000000000000, 625000000000000000, 4375000000000000000, 35171327341773789000000000),
  (3125000000000000000, 1875000000000000000, 3125000000000000000, 35171327341773789000000000),
  (3125000000000000000, 3125000000000000000, 1875000000000000000, 35171327341773789000000000),
  (3125000000000000000, 4375000000000000000, 625000000000000000, 35171327341773789000000000),
  (4375000000000000000, 625000000000000000, 3125000000000000000, 35171327341773789000000000),
  (4375000000000000000, 1875000000000000000, 1875000000000000000, 35171327341773789000000000),
  (4375000000000000000, 3125000000000000000, 625000000000000000, 35171327341773789000000000),
  (5625000000000000000, 625000000000000000, 1875000000000000000, 35171327341773789000000000),
  (5625000000000000000, 1875000000000000000, 625000000000000000, 35171327341773789000000000),
  (6875000000000000000, 625000000000000000, 625000000000000000, 35171327341773789000000000),
  (625000000000000000, 625000000000000000, 5625000000000000000, 35171327341773789000000000),
  (625000000000000000, 1875000000000000000, 4375000000000000000, 35171327341773789000000000),
  (625000000000000000, 3125000000000000000, 3125000000000000000, 35171327341773789000000000),
  (625000000000000000, 4375000000000000000, 1875000000000000000, 35171327341773789000000000),
  (625000000000000000, 5625000000000000000, 625000000000000000, 35171327341773789000000000),
  (1875000000000000000, 625000000000000000, 4375000000000000000, 35171327341773789000000000),
  (1875000000000000000, 1875000000000000000, 3125000000000000000, 35171327341773789000000000),
  (1875000000000000000, 3125000000000000000, 1875000000000000000, 35171327341773789000000000),
  (1875000000000000000, 4375000000000000000, 625000000000000000, 35171327341773789000000000),
  (3125000000000000000, 625000000000000000, 3125000000000000000, 35171327341773789000000000),
  (3125000000000000000, 1875000000000000000, 1875000000000000000, 35171327341773789000000000),
  (3125000000000000000, 3125000000000000000, 625000000000000000, 35171327341773789000000000),
  (4375000000000000000, 625000000000000000, 1875000000000000000, 35171327341773789000000000),
  (4375000000000000000, 1875000000000000000, 625000000000000000, 35171327341773789000000000),
  (5625000000000000000, 625000000000000000, 625000000000000000, 35171327341773789000000000),
  (625000000000000000, 625000000000000000, 4375000000000000000, 35171327341773789000000000)]

/-- `IntegrationTypeTetrahedron.cpp:1219-1268`, part of the block commented `order 17` -/
def tetrahedron12_7 : List (ℤ × ℤ × ℤ × ℤ) := [
  (625000000000000000, 1875000000000000000, 3125000000000000000, 35171327341773789000000000),
  (625000000000000000, 3125000000000000000, 1875000000000000000, 35171327341773789000000000),
  (625000000000000000, 4375000000000000000, 625000000000000000, 35171327341773789000000000),
  (1875000000000000000, 625000000000000000, 3125000000000000000, 35171327341773789000000000),
  (1875000000000000000, 1875000000000000000, 1875000000000000000, 35171327341773789000000000),
  (1875000000000000000, 3125000000000000000, 625000000000000000, 35171327341773789000000000),
  (3125000000000000000, 625000000000000000, 1875000000000000000, 35171327341773789000000000),
  (3125000000000000000, 1875000000000000000, 625000000000000000, 35171327341773789000000000),
  (4375000000000000000, 625000000000000000, 625000000000000000, 35171327341773789000000000),
  (625000000000000000, 625000000000000000, 3125000000000000000, 35171327341773789000000000),
  (625000000000000000, 1875000000000000000, 1875000000000000000, 35171327341773789000000000),
  (625000000000000000, 3125000000000000000, 625000000000000000, 35171327341773789000000000),
  (1875000000000000000, 625000000000000000, 1875000000000000000, 35171327341773789000000000),
  (1875000000000000000, 1875000000000000000, 625000000000000000, 35171327341773789000000000),
  (3125000000000000000, 625000000000000000, 625000000000000000, 35171327341773789000000000),
  (625000000000000000, 625000000000000000, 1875000000000000000, 35171327341773789000000000),
  (625000000000000000, 1875000000000000000, 625000000000000000, 35171327341773789000000000),
  (1875000000000000000, 625000000000000000, 625000000000000000, 35171327341773789000000000),
  (625000000000000000, 625000000000000000, 625000000000000000, 35171327341773789000000000),
  (714285714285715080, 714285714285715080, 7857142857142854800, (-21801024871048674000000000)),
  (714285714285715080, 2142857142857145200, 6428571428571430200, (-21801024871048674000000000)),
  (714285714285715080, 3571428571428569800, 5000000000000000000, (-21801024871048674000000000)),
  (714285714285715080, 5000000000000000000, 3571428571428569800, (-21801024871048674000000000)),
  (714285714285715080, 6428571428571430200, 2142857142857145200, (-21801024871048674000000000)),
  (714285714285715080, 7857142857142854800, 714285714285715080, (-21801024871048674000000000)),
  (2142857142857145200, 714285714285715080, 6428571428571430200, (-21801024871048674000000000)),
  (2142857142857145200, 2142857142857145200, 5000000000000000000, (-21801024871048674000000000)),
  (2142857142857145200, 3571428571428569800, 3571428571428569800, (-21801024871048674000000000)),
  (2142857142857145200, 5000000000000000000, 2142857142857145200, (-21801024871048674000000000)),
  (2142857142857145200, 6428571428571430200, 714285714285715080, (-21801024871048674000000000)),
  (3571428571428569800, 714285714285715080, 5000000000000000000, (-21801024871048674000000000)),
  (3571428571428569800, 2142857142857145200, 3571428571428569800, (-21801024871048674000000000)),
  (3571428571428569800, 3571428571428569800, 2142857142857145200, (-21801024871048674000000000)),
  (3571428571428569800, 5000000000000000000, 714285714285715080, (-21801024871048674000000000)),
  (5000000000000000000, 714285714285715080, 3571428571428569800, (-21801024871048674000000000)),
  (5000000000000000000, 2142857142857145200, 2142857142857145200, (-21801024871048674000000000)),
  (5000000000000000000, 3571428571428569800, 714285714285715080, (-21801024871048674000000000)),
  (6428571428571430200, 714285714285715080, 2142857142857145200, (-21801024871048674000000000)),
  (6428571428571430200, 2142857142857145200, 714285714285715080, (-21801024871048674000000000)),
  (7857142857142854800, 714285714285715080, 714285714285715080, (-21801024871048674000000000)),
  (714285714285715080, 714285714285715080, 6428571428571430200, (-21801024871048674000000000)),
  (714285714285715080, 2142857142857145200, 5000000000000000000, (-21801024871048674000000000)),
  (714285714285715080, 3571428571428569800, 3571428571428569800, (-21801024871048674000000000)),
  (714285714285715080, 5000000000000000000, 2142857142857145200, (-21801024871048674000000000)),
  (714285714285715080, 6428571428571430200, 714285714285715080, (-21801024871048674000000000)),
  (2142857142857145200, 714285714285715080, 5000000000000000000, (-21801024871048674000000000)),
  (2142857142857145200, 2142857142857145200, 3571428571428569800, (-21801024871048674000000000)),
  (2142857142857145200, 3571428571428569800, 2142857142857145200, (-21801024871048674000000000)),
  (2142857142857145200, 5000000000000000000, 714285714285715080, (-21801024871048674000000000)),
  (3571428571428569800, 714285714285715080, 3571428571428569800, (-21801024871048674000000000))]

/-- `IntegrationTypeTetrahedron.cpp:1269-1318`, part of the block commented `order 17` -/
def tetrahedron12_8 : List (ℤ × ℤ × ℤ × ℤ) := [
  (3571428571428569800, 2142857142857145200, 2142857142857145200, (-21801024871048674000000000)),
  (3571428571428569800, 3571428571428569800, 714285714285715080, (-21801024871048674000000000)),
  (5000000000000000000, 714285714285715080, 2142857142857145200, (-21801024871048674000000000)),
  (5000000000000000000, 2142857142857145200, 714285714285715080, (-21801024871048674000000000)),
  (6428571428571430200, 714285714285715080, 714285714285715080, (-21801024871048674000000000)),
  (714285714285715080, 714285714285715080, 5000000000000000000, (-21801024871048674000000000)),
  (714285714285715080, 2142857142857145200, 3571428571428569800, (-21801024871048674000000000)),
  (714285714285715080, 3571428571428569800, 2142857142857145200, (-21801024871048674000000000)),
  (714285714285715080, 5000000000000000000, 714285714285715080, (-21801024871048674000000000)),
  (2142857142857145200, 714285714285715080, 3571428571428569800, (-21801024871048674000000000)),
  (2142857142857145200, 2142857142857145200, 2142857142857145200, (-21801024871048674000000000)),
  (2142857142857145200, 3571428571428569800, 714285714285715080, (-21801024871048674000000000)),
  (3571428571428569800, 714285714285715080, 2142857142857145200, (-21801024871048674000000000)),
  (3571428571428569800, 2142857142857145200, 714285714285715080, (-21801024871048674000000000)),
  (5000000000000000000, 714285714285715080, 714285714285715080, (-21801024871048674000000000)),
  (714285714285715080, 714285714285715080, 3571428571428569800, (-21801024871048674000000000)),
  (714285714285715080, 2142857142857145200, 2142857142857145200, (-21801024871048674000000000)),
  (714285714285715080, 3571428571428569800, 714285714285715080, (-21801024871048674000000000)),
  (2142857142857145200, 714285714285715080, 2142857142857145200, (-21801024871048674000000000)),
  (2142857142857145200, 2142857142857145200, 714285714285715080, (-21801024871048674000000000)),
  (3571428571428569800, 714285714285715080, 714285714285715080, (-21801024871048674000000000)),
  (714285714285715080, 714285714285715080, 2142857142857145200, (-21801024871048674000000000)),
  (714285714285715080, 2142857142857145200, 714285714285715080, (-21801024871048674000000000)),
  (2142857142857145200, 714285714285715080, 714285714285715080, (-21801024871048674000000000)),
  (714285714285715080, 714285714285715080, 714285714285715080, (-21801024871048674000000000)),
  (833333333333334810, 833333333333334810, 7500000000000000000, 6741715427429712000000000),
  (833333333333334810, 2500000000000000000, 5833333333333334800, 6741715427429712000000000),
  (833333333333334810, 4166666666666665200, 4166666666666665200, 6741715427429712000000000),
  (833333333333334810, 5833333333333334800, 2500000000000000000, 6741715427429712000000000),
  (833333333333334810, 7500000000000000000, 833333333333334810, 6741715427429712000000000),
  (2500000000000000000, 833333333333334810, 5833333333333334800, 6741715427429712000000000),
  (2500000000000000000, 2500000000000000000, 4166666666666665200, 6741715427429712000000000),
  (2500000000000000000, 4166666666666665200, 2500000000000000000, 6741715427429712000000000),
  (2500000000000000000, 5833333333333334800, 833333333333334810, 6741715427429712000000000),
  (4166666666666665200, 833333333333334810, 4166666666666665200, 6741715427429712000000000),
  (4166666666666665200, 2500000000000000000, 2500000000000000000, 6741715427429712000000000),
  (4166666666666665200, 4166666666666665200, 833333333333334810, 6741715427429712000000000),
  (5833333333333334800, 833333333333334810, 2500000000000000000, 6741715427429712000000000),
  (5833333333333334800, 2500000000000000000, 833333333333334810, 6741715427429712000000000),
  (7500000000000000000, 833333333333334810, 833333333333334810, 6741715427429712000000000),
  (833333333333334810, 833333333333334810, 5833333333333334800, 6741715427429712000000000),
  (833333333333334810, 2500000000000000000, 4166666666666665200, 6741715427429712000000000),
  (833333333333334810, 4166666666666665200, 2500000000000000000, 6741715427429712000000000),
  (833333333333334810, 5833333333333334800, 833333333333334810, 6741715427429712000000000),
  (2500000000000000000, 833333333333334810, 4166666666666665200, 6741715427429712000000000),
  (2500000000000000000, 2500000000000000000, 2500000000000000000, 6741715427429712000000000),
  (2500000000000000000, 4166666666666665200, 833333333333334810, 6741715427429712000000000),
  (4166666666666665200, 833333333333334810, 2500000000000000000, 6741715427429712000000000),
  (4166666666666665200, 2500000000000000000, 833333333333334810, 6741715427429712000000000),
  (5833333333333334800, 833333333333334810, 833333333333334810, 6741715427429712000000000)]

/-- `IntegrationTypeTetrahedron.cpp:1319-1363`, part of the block commented `order 17` -/
def tetrahedron12_9 : List (ℤ × ℤ × ℤ × ℤ) := [
  (833333333333334810, 833333333333334810, 4166666666666665200, 6741715427429712000000000),
  (833333333333334810, 2500000000000000000, 2500000000000000000, 6741715427429712000000000),
  (833333333333334810, 4166666666666665200, 833333333333334810, 6741715427429712000000000),
  (2500000000000000000, 833333333333334810, 2500000000000000000, 6741715427429712000000000),
  (2500000000000000000, 2500000000000000000, 833333333333334810, 6741715427429712000000000),
  (4166666666666665200, 833333333333334810, 833333333333334810, 6741715427429712000000000),
  (833333333333334810, 833333333333334810, 2500000000000000000, 6741715427429712000000000),
  (833333333333334810, 2500000000000000000, 833333333333334810, 6741715427429712000000000),
  (2500000000000000000, 833333333333334810, 833333333333334810, 6741715427429712000000000),
  (833333333333334810, 833333333333334810, 833333333333334810, 6741715427429712000000000),
  (999999999999999780, 999999999999999780, 6999999999999999600, (-972387152585325010000000)),
  (999999999999999780, 2999999999999999900, 5000000000000000000, (-972387152585325010000000)),
  (999999999999999780, 5000000000000000000, 2999999999999999900, (-972387152585325010000000)),
  (999999999999999780, 6999999999999999600, 999999999999999780, (-972387152585325010000000)),
  (2999999999999999900, 999999999999999780, 5000000000000000000, (-972387152585325010000000)),
  (2999999999999999900, 2999999999999999900, 2999999999999999900, (-972387152585325010000000)),
  (2999999999999999900, 5000000000000000000, 999999999999999780, (-972387152585325010000000)),
  (5000000000000000000, 999999999999999780, 2999999999999999900, (-972387152585325010000000)),
  (5000000000000000000, 2999999999999999900, 999999999999999780, (-972387152585325010000000)),
  (6999999999999999600, 999999999999999780, 999999999999999780, (-972387152585325010000000)),
  (999999999999999780, 999999999999999780, 5000000000000000000, (-972387152585325010000000)),
  (999999999999999780, 2999999999999999900, 2999999999999999900, (-972387152585325010000000)),
  (999999999999999780, 5000000000000000000, 999999999999999780, (-972387152585325010000000)),
  (2999999999999999900, 999999999999999780, 2999999999999999900, (-972387152585325010000000)),
  (2999999999999999900, 2999999999999999900, 999999999999999780, (-972387152585325010000000)),
  (5000000000000000000, 999999999999999780, 999999999999999780, (-972387152585325010000000)),
  (999999999999999780, 999999999999999780, 2999999999999999900, (-972387152585325010000000)),
  (999999999999999780, 2999999999999999900, 999999999999999780, (-972387152585325010000000)),
  (2999999999999999900, 999999999999999780, 999999999999999780, (-972387152585325010000000)),
  (999999999999999780, 999999999999999780, 999999999999999780, (-972387152585325010000000)),
  (1250000000000000000, 1250000000000000000, 6250000000000000000, 54740530225537497000000),
  (1250000000000000000, 3750000000000000000, 3750000000000000000, 54740530225537497000000),
  (1250000000000000000, 6250000000000000000, 1250000000000000000, 54740530225537497000000),
  (3750000000000000000, 1250000000000000000, 3750000000000000000, 54740530225537497000000),
  (3750000000000000000, 3750000000000000000, 1250000000000000000, 54740530225537497000000),
  (6250000000000000000, 1250000000000000000, 1250000000000000000, 54740530225537497000000),
  (1250000000000000000, 1250000000000000000, 3750000000000000000, 54740530225537497000000),
  (1250000000000000000, 3750000000000000000, 1250000000000000000, 54740530225537497000000),
  (3750000000000000000, 1250000000000000000, 1250000000000000000, 54740530225537497000000),
  (1250000000000000000, 1250000000000000000, 1250000000000000000, 54740530225537497000000),
  (1666666666666665200, 1666666666666665200, 5000000000000000000, (-822963309012500040000)),
  (1666666666666665200, 5000000000000000000, 1666666666666665200, (-822963309012500040000)),
  (5000000000000000000, 1666666666666665200, 1666666666666665200, (-822963309012500040000)),
  (1666666666666665200, 1666666666666665200, 1666666666666665200, (-822963309012500040000)),
  (2500000000000000000, 2500000000000000000, 2500000000000000000, 1357320587499999900)]

/-- `IntegrationTypeTetrahedron.cpp:868-1363`, commented `order 17` -/
def tetrahedron12 : List (ℤ × ℤ × ℤ × ℤ) :=
  tetrahedron12_0 ++ (tetrahedron12_1 ++ (tetrahedron12_2 ++ (tetrahedron12_3 ++ (tetrahedron12_4 ++ (tetrahedron12_5 ++ (tetrahedron12_6 ++ (tetrahedron12_7 ++ (tetrahedron12_8 ++ (tetrahedron12_9)))))))))

/-- `IntegrationTypeTetrahedron.cpp:1365-1414`, part of the block commented `order 19` -/
def tetrahedron13_0 : List (ℤ × ℤ × ℤ × ℤ) := [
  (454545454545455250, 454545454545455250, 8636363636363635400, 10882393389431212000000000),
  (454545454545455250, 1363636363636365200, 7727272727272724900, 10882393389431212000000000),
  (454545454545455250, 2272727272727275100, 6818181818181819900, 10882393389431212000000000),
  (454545454545455250, 3181818181818180100, 5909090909090910500, 10882393389431212000000000),
  (454545454545455250, 4090909090909090100, 5000000000000000000, 10882393389431212000000000),
  (454545454545455250, 5000000000000000000, 4090909090909090100, 10882393389431212000000000),
  (454545454545455250, 5909090909090910500, 3181818181818180100, 10882393389431212000000000),
  (454545454545455250, 6818181818181819900, 2272727272727275100, 10882393389431212000000000),
  (454545454545455250, 7727272727272724900, 1363636363636365200, 10882393389431212000000000),
  (454545454545455250, 8636363636363635400, 454545454545455250, 10882393389431212000000000),
  (1363636363636365200, 454545454545455250, 7727272727272724900, 10882393389431212000000000),
  (1363636363636365200, 1363636363636365200, 6818181818181819900, 10882393389431212000000000),
  (1363636363636365200, 2272727272727275100, 5909090909090910500, 10882393389431212000000000),
  (1363636363636365200, 3181818181818180100, 5000000000000000000, 10882393389431212000000000),
  (1363636363636365200, 4090909090909090100, 4090909090909090100, 10882393389431212000000000),
  (1363636363636365200, 5000000000000000000, 3181818181818180100, 10882393389431212000000000),
  (1363636363636365200, 5909090909090910500, 2272727272727275100, 10882393389431212000000000),
  (1363636363636365200, 6818181818181819900, 1363636363636365200, 10882393389431212000000000),
  (1363636363636365200, 7727272727272724900, 454545454545455250, 10882393389431212000000000),
  (2272727272727275100, 454545454545455250, 6818181818181819900, 10882393389431212000000000),
  (2272727272727275100, 1363636363636365200, 5909090909090910500, 10882393389431212000000000),
  (2272727272727275100, 2272727272727275100, 5000000000000000000, 10882393389431212000000000),
  (2272727272727275100, 3181818181818180100, 4090909090909090100, 10882393389431212000000000),
  (2272727272727275100, 4090909090909090100, 3181818181818180100, 10882393389431212000000000),
  (2272727272727275100, 5000000000000000000, 2272727272727275100, 10882393389431212000000000),
  (2272727272727275100, 5909090909090910500, 1363636363636365200, 10882393389431212000000000),
  (2272727272727275100, 6818181818181819900, 454545454545455250, 10882393389431212000000000),
  (3181818181818180100, 454545454545455250, 5909090909090910500, 10882393389431212000000000),
  (3181818181818180100, 1363636363636365200, 5000000000000000000, 10882393389431212000000000),
  (3181818181818180100, 2272727272727275100, 4090909090909090100, 10882393389431212000000000),
  (3181818181818180100, 3181818181818180100, 3181818181818180100, 10882393389431212000000000),
  (3181818181818180100, 4090909090909090100, 2272727272727275100, 10882393389431212000000000),
  (3181818181818180100, 5000000000000000000, 1363636363636365200, 10882393389431212000000000),
  (3181818181818180100, 5909090909090910500, 454545454545455250, 10882393389431212000000000),
  (4090909090909090100, 454545454545455250, 5000000000000000000, 10882393389431212000000000),
  (4090909090909090100, 1363636363636365200, 4090909090909090100, 10882393389431212000000000),
  (4090909090909090100, 2272727272727275100, 3181818181818180100, 10882393389431212000000000),
  (4090909090909090100, 3181818181818180100, 2272727272727275100, 10882393389431212000000000),
  (4090909090909090100, 4090909090909090100, 1363636363636365200, 10882393389431212000000000),
  (4090909090909090100, 5000000000000000000, 454545454545455250, 10882393389431212000000000),
  (5000000000000000000, 454545454545455250, 4090909090909090100, 10882393389431212000000000),
  (5000000000000000000, 1363636363636365200, 3181818181818180100, 10882393389431212000000000),
  (5000000000000000000, 2272727272727275100, 2272727272727275100, 10882393389431212000000000),
  (5000000000000000000, 3181818181818180100, 1363636363636365200, 10882393389431212000000000),
  (5000000000000000000, 4090909090909090100, 454545454545455250, 10882393389431212000000000),
  (5909090909090910500, 454545454545455250, 3181818181818180100, 10882393389431212000000000),
  (5909090909090910500, 1363636363636365200, 2272727272727275100, 10882393389431212000000000),
  (5909090909090910500, 2272727272727275100, 1363636363636365200, 10882393389431212000000000),
  (5909090909090910500, 3181818181818180100, 454545454545455250, 10882393389431212000000000),
  (6818181818181819900, 454545454545455250, 2272727272727275100, 10882393389431212000000000)]

/-- `IntegrationTypeTetrahedron.cpp:1415-1464`, part of the block commented `order 19` -/
def tetrahedron13_1 : List (ℤ × ℤ × ℤ × ℤ) := [
  (6818181818181819900, 1363636363636365200, 1363636363636365200, 10882393389431212000000000),
  (6818181818181819900, 2272727272727275100, 454545454545455250, 10882393389431212000000000),
  (7727272727272724900, 454545454545455250, 1363636363636365200, 10882393389431212000000000),
  (7727272727272724900, 1363636363636365200, 454545454545455250, 10882393389431212000000000),
  (8636363636363635400, 454545454545455250, 454545454545455250, 10882393389431212000000000),
  (454545454545455250, 454545454545455250, 7727272727272724900, 10882393389431212000000000),
  (454545454545455250, 1363636363636365200, 6818181818181819900, 10882393389431212000000000),
  (454545454545455250, 2272727272727275100, 5909090909090910500, 10882393389431212000000000),
  (454545454545455250, 3181818181818180100, 5000000000000000000, 10882393389431212000000000),
  (454545454545455250, 4090909090909090100, 4090909090909090100, 10882393389431212000000000),
  (454545454545455250, 5000000000000000000, 3181818181818180100, 10882393389431212000000000),
  (454545454545455250, 5909090909090910500, 2272727272727275100, 10882393389431212000000000),
  (454545454545455250, 6818181818181819900, 1363636363636365200, 10882393389431212000000000),
  (454545454545455250, 7727272727272724900, 454545454545455250, 10882393389431212000000000),
  (1363636363636365200, 454545454545455250, 6818181818181819900, 10882393389431212000000000),
  (1363636363636365200, 1363636363636365200, 5909090909090910500, 10882393389431212000000000),
  (1363636363636365200, 2272727272727275100, 5000000000000000000, 10882393389431212000000000),
  (1363636363636365200, 3181818181818180100, 4090909090909090100, 10882393389431212000000000),
  (1363636363636365200, 4090909090909090100, 3181818181818180100, 10882393389431212000000000),
  (1363636363636365200, 5000000000000000000, 2272727272727275100, 10882393389431212000000000),
  (1363636363636365200, 5909090909090910500, 1363636363636365200, 10882393389431212000000000),
  (1363636363636365200, 6818181818181819900, 454545454545455250, 10882393389431212000000000),
  (2272727272727275100, 454545454545455250, 5909090909090910500, 10882393389431212000000000),
  (2272727272727275100, 1363636363636365200, 5000000000000000000, 10882393389431212000000000),
  (2272727272727275100, 2272727272727275100, 4090909090909090100, 10882393389431212000000000),
  (2272727272727275100, 3181818181818180100, 3181818181818180100, 10882393389431212000000000),
  (2272727272727275100, 4090909090909090100, 2272727272727275100, 10882393389431212000000000),
  (2272727272727275100, 5000000000000000000, 1363636363636365200, 10882393389431212000000000),
  (2272727272727275100, 5909090909090910500, 454545454545455250, 10882393389431212000000000),
  (3181818181818180100, 454545454545455250, 5000000000000000000, 10882393389431212000000000),
  (3181818181818180100, 1363636363636365200, 4090909090909090100, 10882393389431212000000000),
  (3181818181818180100, 2272727272727275100, 3181818181818180100, 10882393389431212000000000),
  (3181818181818180100, 3181818181818180100, 2272727272727275100, 10882393389431212000000000),
  (3181818181818180100, 4090909090909090100, 1363636363636365200, 10882393389431212000000000),
  (3181818181818180100, 5000000000000000000, 454545454545455250, 10882393389431212000000000),
  (4090909090909090100, 454545454545455250, 4090909090909090100, 10882393389431212000000000),
  (4090909090909090100, 1363636363636365200, 3181818181818180100, 10882393389431212000000000),
  (4090909090909090100, 2272727272727275100, 2272727272727275100, 10882393389431212000000000),
  (4090909090909090100, 3181818181818180100, 1363636363636365200, 10882393389431212000000000),
  (4090909090909090100, 4090909090909090100, 454545454545455250, 10882393389431212000000000),
  (5000000000000000000, 454545454545455250, 3181818181818180100, 10882393389431212000000000),
  (5000000000000000000, 1363636363636365200, 2272727272727275100, 10882393389431212000000000),
  (5000000000000000000, 2272727272727275100, 1363636363636365200, 10882393389431212000000000),
  (5000000000000000000, 3181818181818180100, 454545454545455250, 10882393389431212000000000),
  (5909090909090910500, 454545454545455250, 2272727272727275100, 10882393389431212000000000),
  (5909090909090910500, 1363636363636365200, 1363636363636365200, 10882393389431212000000000),
  (5909090909090910500, 2272727272727275100, 454545454545455250, 10882393389431212000000000),
  (6818181818181819900, 454545454545455250, 1363636363636365200, 10882393389431212000000000),
  (6818181818181819900, 1363636363636365200, 454545454545455250, 10882393389431212000000000),
  (7727272727272724900, 454545454545455250, 454545454545455250, 10882393389431212000000000)]

/-- `IntegrationTypeTetrahedron.cpp:1465-1514`, part of the block commented `order 19` -/
def tetrahedron13_2 : List (ℤ × ℤ × ℤ × ℤ) := [
  (454545454545455250, 454545454545455250, 6818181818181819900, 10882393389431212000000000),
  (454545454545455250, 1363636363636365200, 5909090909090910500, 10882393389431212000000000),
  (454545454545455250, 2272727272727275100, 5000000000000000000, 10882393389431212000000000),
  (454545454545455250, 3181818181818180100, 4090909090909090100, 10882393389431212000000000),
  (454545454545455250, 4090909090909090100, 3181818181818180100, 10882393389431212000000000),
  (454545454545455250, 5000000000000000000, 2272727272727275100, 10882393389431212000000000),
  (454545454545455250, 5909090909090910500, 1363636363636365200, 10882393389431212000000000),
  (454545454545455250, 6818181818181819900, 454545454545455250, 10882393389431212000000000),
  (1363636363636365200, 454545454545455250, 5909090909090910500, 10882393389431212000000000),
  (1363636363636365200, 1363636363636365200, 5000000000000000000, 10882393389431212000000000),
  (1363636363636365200, 2272727272727275100, 4090909090909090100, 10882393389431212000000000),
  (1363636363636365200, 3181818181818180100, 3181818181818180100, 10882393389431212000000000),
  (1363636363636365200, 4090909090909090100, 2272727272727275100, 10882393389431212000000000),
  (1363636363636365200, 5000000000000000000, 1363636363636365200, 10882393389431212000000000),
  (1363636363636365200, 5909090909090910500, 454545454545455250, 10882393389431212000000000),
  (2272727272727275100, 454545454545455250, 5000000000000000000, 10882393389431212000000000),
  (2272727272727275100, 1363636363636365200, 4090909090909090100, 10882393389431212000000000),
  (2272727272727275100, 2272727272727275100, 3181818181818180100, 10882393389431212000000000),
  (2272727272727275100, 3181818181818180100, 2272727272727275100, 10882393389431212000000000),
  (2272727272727275100, 4090909090909090100, 1363636363636365200, 10882393389431212000000000),
  (2272727272727275100, 5000000000000000000, 454545454545455250, 10882393389431212000000000),
  (3181818181818180100, 454545454545455250, 4090909090909090100, 10882393389431212000000000),
  (3181818181818180100, 1363636363636365200, 3181818181818180100, 10882393389431212000000000),
  (3181818181818180100, 2272727272727275100, 2272727272727275100, 10882393389431212000000000),
  (3181818181818180100, 3181818181818180100, 1363636363636365200, 10882393389431212000000000),
  (3181818181818180100, 4090909090909090100, 454545454545455250, 10882393389431212000000000),
  (4090909090909090100, 454545454545455250, 3181818181818180100, 10882393389431212000000000),
  (4090909090909090100, 1363636363636365200, 2272727272727275100, 10882393389431212000000000),
  (4090909090909090100, 2272727272727275100, 1363636363636365200, 10882393389431212000000000),
  (4090909090909090100, 3181818181818180100, 454545454545455250, 10882393389431212000000000),
  (5000000000000000000, 454545454545455250, 2272727272727275100, 10882393389431212000000000),
  (5000000000000000000, 1363636363636365200, 1363636363636365200, 10882393389431212000000000),
  (5000000000000000000, 2272727272727275100, 454545454545455250, 10882393389431212000000000),
  (5909090909090910500, 454545454545455250, 1363636363636365200, 10882393389431212000000000),
  (5909090909090910500, 1363636363636365200, 454545454545455250, 10882393389431212000000000),
  (6818181818181819900, 454545454545455250, 454545454545455250, 10882393389431212000000000),
  (454545454545455250, 454545454545455250, 5909090909090910500, 10882393389431212000000000),
  (454545454545455250, 1363636363636365200, 5000000000000000000, 10882393389431212000000000),
  (454545454545455250, 2272727272727275100, 4090909090909090100, 10882393389431212000000000),
  (454545454545455250, 3181818181818180100, 3181818181818180100, 10882393389431212000000000),
  (454545454545455250, 4090909090909090100, 2272727272727275100, 10882393389431212000000000),
  (454545454545455250, 5000000000000000000, 1363636363636365200, 10882393389431212000000000),
  (454545454545455250, 5909090909090910500, 454545454545455250, 10882393389431212000000000),
  (1363636363636365200, 454545454545455250, 5000000000000000000, 10882393389431212000000000),
  (1363636363636365200, 1363636363636365200, 4090909090909090100, 10882393389431212000000000),
  (1363636363636365200, 2272727272727275100, 3181818181818180100, 10882393389431212000000000),
  (1363636363636365200, 3181818181818180100, 2272727272727275100, 10882393389431212000000000),
  (1363636363636365200, 4090909090909090100, 1363636363636365200, 10882393389431212000000000),
  (1363636363636365200, 5000000000000000000, 454545454545455250, 10882393389431212000000000),
  (2272727272727275100, 454545454545455250, 4090909090909090100, 10882393389431212000000000)]

/-- `IntegrationTypeTetrahedron.cpp:1515-1564`, part of the block commented `order 19` -/
def tetrahedron13_3 : List (ℤ × ℤ × ℤ × ℤ) := [
  (2272727272727275100, 1363636363636365200, 3181818181818180100, 10882393389431212000000000),
  (2272727272727275100, 2272727272727275100, 2272727272727275100, 10882393389431212000000000),
  (2272727272727275100, 3181818181818180100, 1363636363636365200, 10882393389431212000000000),
  (2272727272727275100, 4090909090909090100, 454545454545455250, 10882393389431212000000000),
  (3181818181818180100, 454545454545455250, 3181818181818180100, 10882393389431212000000000),
  (3181818181818180100, 1363636363636365200, 2272727272727275100, 10882393389431212000000000),
  (3181818181818180100, 2272727272727275100, 1363636363636365200, 10882393389431212000000000),
  (3181818181818180100, 3181818181818180100, 454545454545455250, 10882393389431212000000000),
  (4090909090909090100, 454545454545455250, 2272727272727275100, 10882393389431212000000000),
  (4090909090909090100, 1363636363636365200, 1363636363636365200, 10882393389431212000000000),
  (4090909090909090100, 2272727272727275100, 454545454545455250, 10882393389431212000000000),
  (5000000000000000000, 454545454545455250, 1363636363636365200, 10882393389431212000000000),
  (5000000000000000000, 1363636363636365200, 454545454545455250, 10882393389431212000000000),
  (5909090909090910500, 454545454545455250, 454545454545455250, 10882393389431212000000000),
  (454545454545455250, 454545454545455250, 5000000000000000000, 10882393389431212000000000),
  (454545454545455250, 1363636363636365200, 4090909090909090100, 10882393389431212000000000),
  (454545454545455250, 2272727272727275100, 3181818181818180100, 10882393389431212000000000),
  (454545454545455250, 3181818181818180100, 2272727272727275100, 10882393389431212000000000),
  (454545454545455250, 4090909090909090100, 1363636363636365200, 10882393389431212000000000),
  (454545454545455250, 5000000000000000000, 454545454545455250, 10882393389431212000000000),
  (1363636363636365200, 454545454545455250, 4090909090909090100, 10882393389431212000000000),
  (1363636363636365200, 1363636363636365200, 3181818181818180100, 10882393389431212000000000),
  (1363636363636365200, 2272727272727275100, 2272727272727275100, 10882393389431212000000000),
  (1363636363636365200, 3181818181818180100, 1363636363636365200, 10882393389431212000000000),
  (1363636363636365200, 4090909090909090100, 454545454545455250, 10882393389431212000000000),
  (2272727272727275100, 454545454545455250, 3181818181818180100, 10882393389431212000000000),
  (2272727272727275100, 1363636363636365200, 2272727272727275100, 10882393389431212000000000),
  (2272727272727275100, 2272727272727275100, 1363636363636365200, 10882393389431212000000000),
  (2272727272727275100, 3181818181818180100, 454545454545455250, 10882393389431212000000000),
  (3181818181818180100, 454545454545455250, 2272727272727275100, 10882393389431212000000000),
  (3181818181818180100, 1363636363636365200, 1363636363636365200, 10882393389431212000000000),
  (3181818181818180100, 2272727272727275100, 454545454545455250, 10882393389431212000000000),
  (4090909090909090100, 454545454545455250, 1363636363636365200, 10882393389431212000000000),
  (4090909090909090100, 1363636363636365200, 454545454545455250, 10882393389431212000000000),
  (5000000000000000000, 454545454545455250, 454545454545455250, 10882393389431212000000000),
  (454545454545455250, 454545454545455250, 4090909090909090100, 10882393389431212000000000),
  (454545454545455250, 1363636363636365200, 3181818181818180100, 10882393389431212000000000),
  (454545454545455250, 2272727272727275100, 2272727272727275100, 10882393389431212000000000),
  (454545454545455250, 3181818181818180100, 1363636363636365200, 10882393389431212000000000),
  (454545454545455250, 4090909090909090100, 454545454545455250, 10882393389431212000000000),
  (1363636363636365200, 454545454545455250, 3181818181818180100, 10882393389431212000000000),
  (1363636363636365200, 1363636363636365200, 2272727272727275100, 10882393389431212000000000),
  (1363636363636365200, 2272727272727275100, 1363636363636365200, 10882393389431212000000000),
  (1363636363636365200, 3181818181818180100, 454545454545455250, 10882393389431212000000000),
  (2272727272727275100, 454545454545455250, 2272727272727275100, 10882393389431212000000000),
  (2272727272727275100, 1363636363636365200, 1363636363636365200, 10882393389431212000000000),
  (2272727272727275100, 2272727272727275100, 454545454545455250, 10882393389431212000000000),
  (3181818181818180100, 454545454545455250, 1363636363636365200, 10882393389431212000000000),
  (3181818181818180100, 1363636363636365200, 454545454545455250, 10882393389431212000000000),
  (4090909090909090100, 454545454545455250, 454545454545455250, 10882393389431212000000000)]

/-- `IntegrationTypeTetrahedron.cpp:1565-1614`, part of the block commented `order 19` -/
def tetrahedron13_4 : List (ℤ × ℤ × ℤ × ℤ) := [
  (454545454545455250, 454545454545455250, 3181818181818180100, 10882393389431212000000000),
  (454545454545455250, 1363636363636365200, 2272727272727275100, 10882393389431212000000000),
  (454545454545455250, 2272727272727275100, 1363636363636365200, 10882393389431212000000000),
  (454545454545455250, 3181818181818180100, 454545454545455250, 10882393389431212000000000),
  (1363636363636365200, 454545454545455250, 2272727272727275100, 10882393389431212000000000),
  (1363636363636365200, 1363636363636365200, 1363636363636365200, 10882393389431212000000000),
  (1363636363636365200, 2272727272727275100, 454545454545455250, 10882393389431212000000000),
  (2272727272727275100, 454545454545455250, 1363636363636365200, 10882393389431212000000000),
  (2272727272727275100, 1363636363636365200, 454545454545455250, 10882393389431212000000000),
  (3181818181818180100, 454545454545455250, 454545454545455250, 10882393389431212000000000),
  (454545454545455250, 454545454545455250, 2272727272727275100, 10882393389431212000000000),
  (454545454545455250, 1363636363636365200, 1363636363636365200, 10882393389431212000000000),
  (454545454545455250, 2272727272727275100, 454545454545455250, 10882393389431212000000000),
  (1363636363636365200, 454545454545455250, 1363636363636365200, 10882393389431212000000000),
  (1363636363636365200, 1363636363636365200, 454545454545455250, 10882393389431212000000000),
  (2272727272727275100, 454545454545455250, 454545454545455250, 10882393389431212000000000),
  (454545454545455250, 454545454545455250, 1363636363636365200, 10882393389431212000000000),
  (454545454545455250, 1363636363636365200, 454545454545455250, 10882393389431212000000000),
  (1363636363636365200, 454545454545455250, 454545454545455250, 10882393389431212000000000),
  (454545454545455250, 454545454545455250, 454545454545455250, 10882393389431212000000000),
  (499999999999999890, 499999999999999890, 8499999999999999800, (-39145882126782527000000000)),
  (499999999999999890, 1500000000000000200, 7500000000000000000, (-39145882126782527000000000)),
  (499999999999999890, 2500000000000000000, 6500000000000000200, (-39145882126782527000000000)),
  (499999999999999890, 3499999999999999800, 5500000000000000400, (-39145882126782527000000000)),
  (499999999999999890, 4500000000000000100, 4500000000000000100, (-39145882126782527000000000)),
  (499999999999999890, 5500000000000000400, 3499999999999999800, (-39145882126782527000000000)),
  (499999999999999890, 6500000000000000200, 2500000000000000000, (-39145882126782527000000000)),
  (499999999999999890, 7500000000000000000, 1500000000000000200, (-39145882126782527000000000)),
  (499999999999999890, 8499999999999999800, 499999999999999890, (-39145882126782527000000000)),
  (1500000000000000200, 499999999999999890, 7500000000000000000, (-39145882126782527000000000)),
  (1500000000000000200, 1500000000000000200, 6500000000000000200, (-39145882126782527000000000)),
  (1500000000000000200, 2500000000000000000, 5500000000000000400, (-39145882126782527000000000)),
  (1500000000000000200, 3499999999999999800, 4500000000000000100, (-39145882126782527000000000)),
  (1500000000000000200, 4500000000000000100, 3499999999999999800, (-39145882126782527000000000)),
  (1500000000000000200, 5500000000000000400, 2500000000000000000, (-39145882126782527000000000)),
  (1500000000000000200, 6500000000000000200, 1500000000000000200, (-39145882126782527000000000)),
  (1500000000000000200, 7500000000000000000, 499999999999999890, (-39145882126782527000000000)),
  (2500000000000000000, 499999999999999890, 6500000000000000200, (-39145882126782527000000000)),
  (2500000000000000000, 1500000000000000200, 5500000000000000400, (-39145882126782527000000000)),
  (2500000000000000000, 2500000000000000000, 4500000000000000100, (-39145882126782527000000000)),
  (2500000000000000000, 3499999999999999800, 3499999999999999800, (-39145882126782527000000000)),
  (2500000000000000000, 4500000000000000100, 2500000000000000000, (-39145882126782527000000000)),
  (2500000000000000000, 5500000000000000400, 1500000000000000200, (-39145882126782527000000000)),
  (2500000000000000000, 6500000000000000200, 499999999999999890, (-39145882126782527000000000)),
  (3499999999999999800, 499999999999999890, 5500000000000000400, (-39145882126782527000000000)),
  (3499999999999999800, 1500000000000000200, 4500000000000000100, (-39145882126782527000000000)),
  (3499999999999999800, 2500000000000000000, 3499999999999999800, (-39145882126782527000000000)),
  (3499999999999999800, 3499999999999999800, 2500000000000000000, (-39145882126782527000000000)),
  (3499999999999999800, 4500000000000000100, 1500000000000000200, (-39145882126782527000000000)),
  (3499999999999999800, 5500000000000000400, 499999999999999890, (-39145882126782527000000000))]

/-- `IntegrationTypeTetrahedron.cpp:1615-1664`, part of the block commented `order 19` -/
def tetrahedron13_5 : List (ℤ × ℤ × ℤ × ℤ) := [
  (4500000000000000100, 499999999999999890, 4500000000000000100, (-39145882126782527000000000)),
  (4500000000000000100, 1500000000000000200, 3499999999999999800, (-39145882126782527000000000)),
  (4500000000000000100, 2500000000000000000, 2500000000000000000, (-39145882126782527000000000)),
  (4500000000000000100, 3499999999999999800, 1500000000000000200, (-39145882126782527000000000)),
  (4500000000000000100, 4500000000000000100, 499999999999999890, (-39145882126782527000000000)),
  (5500000000000000400, 499999999999999890, 3499999999999999800, (-39145882126782527000000000)),
  (5500000000000000400, 1500000000000000200, 2500000000000000000, (-39145882126782527000000000)),
  (5500000000000000400, 2500000000000000000, 1500000000000000200, (-39145882126782527000000000)),
  (5500000000000000400, 3499999999999999800, 499999999999999890, (-39145882126782527000000000)),
  (6500000000000000200, 499999999999999890, 2500000000000000000, (-39145882126782527000000000)),
  (6500000000000000200, 1500000000000000200, 1500000000000000200, (-39145882126782527000000000)),
  (6500000000000000200, 2500000000000000000, 499999999999999890, (-39145882126782527000000000)),
  (7500000000000000000, 499999999999999890, 1500000000000000200, (-39145882126782527000000000)),
  (7500000000000000000, 1500000000000000200, 499999999999999890, (-39145882126782527000000000)),
  (8499999999999999800, 499999999999999890, 499999999999999890, (-39145882126782527000000000)),
  (499999999999999890, 499999999999999890, 7500000000000000000, (-39145882126782527000000000)),
  (499999999999999890, 1500000000000000200, 6500000000000000200, (-39145882126782527000000000)),
  (499999999999999890, 2500000000000000000, 5500000000000000400, (-39145882126782527000000000)),
  (499999999999999890, 3499999999999999800, 4500000000000000100, (-39145882126782527000000000)),
  (499999999999999890, 4500000000000000100, 3499999999999999800, (-39145882126782527000000000)),
  (499999999999999890, 5500000000000000400, 2500000000000000000, (-39145882126782527000000000)),
  (499999999999999890, 6500000000000000200, 1500000000000000200, (-39145882126782527000000000)),
  (499999999999999890, 7500000000000000000, 499999999999999890, (-39145882126782527000000000)),
  (1500000000000000200, 499999999999999890, 6500000000000000200, (-39145882126782527000000000)),
  (1500000000000000200, 1500000000000000200, 5500000000000000400, (-39145882126782527000000000)),
  (1500000000000000200, 2500000000000000000, 4500000000000000100, (-39145882126782527000000000)),
  (1500000000000000200, 3499999999999999800, 3499999999999999800, (-39145882126782527000000000)),
  (1500000000000000200, 4500000000000000100, 2500000000000000000, (-39145882126782527000000000)),
  (1500000000000000200, 5500000000000000400, 1500000000000000200, (-39145882126782527000000000)),
  (1500000000000000200, 6500000000000000200, 499999999999999890, (-39145882126782527000000000)),
  (2500000000000000000, 499999999999999890, 5500000000000000400, (-39145882126782527000000000)),
  (2500000000000000000, 1500000000000000200, 4500000000000000100, (-39145882126782527000000000)),
  (2500000000000000000, 2500000000000000000, 3499999999999999800, (-39145882126782527000000000)),
  (2500000000000000000, 3499999999999999800, 2500000000000000000, (-39145882126782527000000000)),
  (2500000000000000000, 4500000000000000100, 1500000000000000200, (-39145882126782527000000000)),
  (2500000000000000000, 5500000000000000400, 499999999999999890, (-39145882126782527000000000)),
  (3499999999999999800, 499999999999999890, 4500000000000000100, (-39145882126782527000000000)),
  (3499999999999999800, 1500000000000000200, 3499999999999999800, (-39145882126782527000000000)),
  (3499999999999999800, 2500000000000000000, 2500000000000000000, (-39145882126782527000000000)),
  (3499999999999999800, 3499999999999999800, 1500000000000000200, (-39145882126782527000000000)),
  (3499999999999999800, 4500000000000000100, 499999999999999890, (-39145882126782527000000000)),
  (4500000000000000100, 499999999999999890, 3499999999999999800, (-39145882126782527000000000)),
  (4500000000000000100, 1500000000000000200, 2500000000000000000, (-39145882126782527000000000)),
  (4500000000000000100, 2500000000000000000, 1500000000000000200, (-39145882126782527000000000)),
  (4500000000000000100, 3499999999999999800, 499999999999999890, (-39145882126782527000000000)),
  (5500000000000000400, 499999999999999890, 2500000000000000000, (-39145882126782527000000000)),
  (5500000000000000400, 1500000000000000200, 1500000000000000200, (-39145882126782527000000000)),
  (5500000000000000400, 2500000000000000000, 499999999999999890, (-39145882126782527000000000)),
  (6500000000000000200, 499999999999999890, 1500000000000000200, (-39145882126782527000000000)),
  (6500000000000000200, 1500000000000000200, 499999999999999890, (-39145882126782527000000000))]

/-- `IntegrationTypeTetrahedron.cpp:1665-1714`, part of the block commented `order 19` -/
def tetrahedron13_6 : List (ℤ × ℤ × ℤ × ℤ) := [
  (7500000000000000000, 499999999999999890, 499999999999999890, (-39145882126782527000000000)),
  (499999999999999890, 499999999999999890, 6500000000000000200, (-39145882126782527000000000)),
  (499999999999999890, 1500000000000000200, 5500000000000000400, (-39145882126782527000000000)),
  (499999999999999890, 2500000000000000000, 4500000000000000100, (-39145882126782527000000000)),
  (499999999999999890, 3499999999999999800, 3499999999999999800, (-39145882126782527000000000)),
  (499999999999999890, 4500000000000000100, 2500000000000000000, (-39145882126782527000000000)),
  (499999999999999890, 5500000000000000400, 1500000000000000200, (-39145882126782527000000000)),
  (499999999999999890, 6500000000000000200, 499999999999999890, (-39145882126782527000000000)),
  (1500000000000000200, 499999999999999890, 5500000000000000400, (-39145882126782527000000000)),
  (1500000000000000200, 1500000000000000200, 4500000000000000100, (-39145882126782527000000000)),
  (1500000000000000200, 2500000000000000000, 3499999999999999800, (-39145882126782527000000000)),
  (1500000000000000200, 3499999999999999800, 2500000000000000000, (-39145882126782527000000000)),
  (1500000000000000200, 4500000000000000100, 1500000000000000200, (-39145882126782527000000000)),
  (1500000000000000200, 5500000000000000400, 499999999999999890, (-39145882126782527000000000)),
  (2500000000000000000, 499999999999999890, 4500000000000000100, (-39145882126782527000000000)),
  (2500000000000000000, 1500000000000000200, 3499999999999999800, (-39145882126782527000000000)),
  (2500000000000000000, 2500000000000000000, 2500000000000000000, (-39145882126782527000000000)),
  (2500000000000000000, 3499999999999999800, 1500000000000000200, (-39145882126782527000000000)),
  (2500000000000000000, 4500000000000000100, 499999999999999890, (-39145882126782527000000000)),
  (3499999999999999800, 499999999999999890, 3499999999999999800, (-39145882126782527000000000)),
  (3499999999999999800, 1500000000000000200, 2500000000000000000, (-39145882126782527000000000)),
  (3499999999999999800, 2500000000000000000, 1500000000000000200, (-39145882126782527000000000)),
  (3499999999999999800, 3499999999999999800, 499999999999999890, (-39145882126782527000000000)),
  (4500000000000000100, 499999999999999890, 2500000000000000000, (-39145882126782527000000000)),
  (4500000000000000100, 1500000000000000200, 1500000000000000200, (-39145882126782527000000000)),
  (4500000000000000100, 2500000000000000000, 499999999999999890, (-39145882126782527000000000)),
  (5500000000000000400, 499999999999999890, 1500000000000000200, (-39145882126782527000000000)),
  (5500000000000000400, 1500000000000000200, 499999999999999890, (-39145882126782527000000000)),
  (6500000000000000200, 499999999999999890, 499999999999999890, (-39145882126782527000000000)),
  (499999999999999890, 499999999999999890, 5500000000000000400, (-39145882126782527000000000)),
  (499999999999999890, 1500000000000000200, 4500000000000000100, (-39145882126782527000000000)),
  (499999999999999890, 2500000000000000000, 3499999999999999800, (-39145882126782527000000000)),
  (499999999999999890, 3499999999999999800, 2500000000000000000, (-39145882126782527000000000)),
  (499999999999999890, 4500000000000000100, 1500000000000000200, (-39145882126782527000000000)),
  (499999999999999890, 5500000000000000400, 499999999999999890, (-39145882126782527000000000)),
  (1500000000000000200, 499999999999999890, 4500000000000000100, (-39145882126782527000000000)),
  (1500000000000000200, 1500000000000000200, 3499999999999999800, (-39145882126782527000000000)),
  (1500000000000000200, 2500000000000000000, 2500000000000000000, (-39145882126782527000000000)),
  (1500000000000000200, 3499999999999999800, 1500000000000000200, (-39145882126782527000000000)),
  (1500000000000000200, 4500000000000000100, 499999999999999890, (-39145882126782527000000000)),
  (2500000000000000000, 499999999999999890, 3499999999999999800, (-39145882126782527000000000)),
  (2500000000000000000, 1500000000000000200, 2500000000000000000, (-39145882126782527000000000)),
  (2500000000000000000, 2500000000000000000, 1500000000000000200, (-39145882126782527000000000)),
  (2500000000000000000, 3499999999999999800, 499999999999999890, (-39145882126782527000000000)),
  (3499999999999999800, 499999999999999890, 2500000000000000000, (-39145882126782527000000000)),
  (3499999999999999800, 1500000000000000200, 1500000000000000200, (-39145882126782527000000000)),
  (3499999999999999800, 2500000000000000000, 499999999999999890, (-39145882126782527000000000)),
  (4500000000000000100, 499999999999999890, 1500000000000000200, (-39145882126782527000000000)),
  (4500000000000000100, 1500000000000000200, 499999999999999890, (-39145882126782527000000000)),
  (5500000000000000400, 499999999999999890, 499999999999999890, (-39145882126782527000000000))]

/-- `IntegrationTypeTetrahedron.cpp:1715-1764`, part of the block commented `order 19` -/
def tetrahedron13_7 : List (ℤ × ℤ × ℤ × ℤ) := [
  (499999999999999890, 499999999999999890, 4500000000000000100, (-39145882126782527000000000)),
  (499999999999999890, 1500000000000000200, 3499999999999999800, (-39145882126782527000000000)),
  (499999999999999890, 2500000000000000000, 2500000000000000000, (-39145882126782527000000000)),
  (499999999999999890, 3499999999999999800, 1500000000000000200, (-39145882126782527000000000)),
  (499999999999999890, 4500000000000000100, 499999999999999890, (-39145882126782527000000000)),
  (1500000000000000200, 499999999999999890, 3499999999999999800, (-39145882126782527000000000)),
  (1500000000000000200, 1500000000000000200, 2500000000000000000, (-39145882126782527000000000)),
  (1500000000000000200, 2500000000000000000, 1500000000000000200, (-39145882126782527000000000)),
  (1500000000000000200, 3499999999999999800, 499999999999999890, (-39145882126782527000000000)),
  (2500000000000000000, 499999999999999890, 2500000000000000000, (-39145882126782527000000000)),
  (2500000000000000000, 1500000000000000200, 1500000000000000200, (-39145882126782527000000000)),
  (2500000000000000000, 2500000000000000000, 499999999999999890, (-39145882126782527000000000)),
  (3499999999999999800, 499999999999999890, 1500000000000000200, (-39145882126782527000000000)),
  (3499999999999999800, 1500000000000000200, 499999999999999890, (-39145882126782527000000000)),
  (4500000000000000100, 499999999999999890, 499999999999999890, (-39145882126782527000000000)),
  (499999999999999890, 499999999999999890, 3499999999999999800, (-39145882126782527000000000)),
  (499999999999999890, 1500000000000000200, 2500000000000000000, (-39145882126782527000000000)),
  (499999999999999890, 2500000000000000000, 1500000000000000200, (-39145882126782527000000000)),
  (499999999999999890, 3499999999999999800, 499999999999999890, (-39145882126782527000000000)),
  (1500000000000000200, 499999999999999890, 2500000000000000000, (-39145882126782527000000000)),
  (1500000000000000200, 1500000000000000200, 1500000000000000200, (-39145882126782527000000000)),
  (1500000000000000200, 2500000000000000000, 499999999999999890, (-39145882126782527000000000)),
  (2500000000000000000, 499999999999999890, 1500000000000000200, (-39145882126782527000000000)),
  (2500000000000000000, 1500000000000000200, 499999999999999890, (-39145882126782527000000000)),
  (3499999999999999800, 499999999999999890, 499999999999999890, (-39145882126782527000000000)),
  (499999999999999890, 499999999999999890, 2500000000000000000, (-39145882126782527000000000)),
  (499999999999999890, 1500000000000000200, 1500000000000000200, (-39145882126782527000000000)),
  (499999999999999890, 2500000000000000000, 499999999999999890, (-39145882126782527000000000)),
  (1500000000000000200, 499999999999999890, 1500000000000000200, (-39145882126782527000000000)),
  (1500000000000000200, 1500000000000000200, 499999999999999890, (-39145882126782527000000000)),
  (2500000000000000000, 499999999999999890, 499999999999999890, (-39145882126782527000000000)),
  (499999999999999890, 499999999999999890, 1500000000000000200, (-39145882126782527000000000)),
  (499999999999999890, 1500000000000000200, 499999999999999890, (-39145882126782527000000000)),
  (1500000000000000200, 499999999999999890, 499999999999999890, (-39145882126782527000000000)),
  (499999999999999890, 499999999999999890, 499999999999999890, (-39145882126782527000000000)),
  (555555555555555250, 555555555555555250, 8333333333333334800, 55524296216328084000000000),
  (555555555555555250, 1666666666666665200, 7222222222222219900, 55524296216328084000000000),
  (555555555555555250, 2777777777777780100, 6111111111111109400, 55524296216328084000000000),
  (555555555555555250, 3888888888888890100, 5000000000000000000, 55524296216328084000000000),
  (555555555555555250, 5000000000000000000, 3888888888888890100, 55524296216328084000000000),
  (555555555555555250, 6111111111111109400, 2777777777777780100, 55524296216328084000000000),
  (555555555555555250, 7222222222222219900, 1666666666666665200, 55524296216328084000000000),
  (555555555555555250, 8333333333333334800, 555555555555555250, 55524296216328084000000000),
  (1666666666666665200, 555555555555555250, 7222222222222219900, 55524296216328084000000000),
  (1666666666666665200, 1666666666666665200, 6111111111111109400, 55524296216328084000000000),
  (1666666666666665200, 2777777777777780100, 5000000000000000000, 55524296216328084000000000),
  (1666666666666665200, 3888888888888890100, 3888888888888890100, 55524296216328084000000000),
  (1666666666666665200, 5000000000000000000, 2777777777777780100, 55524296216328084000000000),
  (1666666666666665200, 6111111111111109400, 1666666666666665200, 55524296216328084000000000),
  (1666666666666665200, 7222222222222219900, 555555555555555250, 55524296216328084000000000)]

/-- `IntegrationTypeTetrahedron.cpp:1765-1814`, part of the block commented `order 19` -/
def tetrahedron13_8 : List (ℤ × ℤ × ℤ × ℤ) := [
  (2777777777777780100, 555555555555555250, 6111111111111109400, 55524296216328084000000000),
  (2777777777777780100, 1666666666666665200, 5000000000000000000, 55524296216328084000000000),
  (2777777777777780100, 2777777777777780100, 3888888888888890100, 55524296216328084000000000),
  (2777777777777780100, 3888888888888890100, 2777777777777780100, 55524296216328084000000000),
  (2777777777777780100, 5000000000000000000, 1666666666666665200, 55524296216328084000000000),
  (2777777777777780100, 6111111111111109400, 555555555555555250, 55524296216328084000000000),
  (3888888888888890100, 555555555555555250, 5000000000000000000, 55524296216328084000000000),
  (3888888888888890100, 1666666666666665200, 3888888888888890100, 55524296216328084000000000),
  (3888888888888890100, 2777777777777780100, 2777777777777780100, 55524296216328084000000000),
  (3888888888888890100, 3888888888888890100, 1666666666666665200, 55524296216328084000000000),
  (3888888888888890100, 5000000000000000000, 555555555555555250, 55524296216328084000000000),
  (5000000000000000000, 555555555555555250, 3888888888888890100, 55524296216328084000000000),
  (5000000000000000000, 1666666666666665200, 2777777777777780100, 55524296216328084000000000),
  (5000000000000000000, 2777777777777780100, 1666666666666665200, 55524296216328084000000000),
  (5000000000000000000, 3888888888888890100, 555555555555555250, 55524296216328084000000000),
  (6111111111111109400, 555555555555555250, 2777777777777780100, 55524296216328084000000000),
  (6111111111111109400, 1666666666666665200, 1666666666666665200, 55524296216328084000000000),
  (6111111111111109400, 2777777777777780100, 555555555555555250, 55524296216328084000000000),
  (7222222222222219900, 555555555555555250, 1666666666666665200, 55524296216328084000000000),
  (7222222222222219900, 1666666666666665200, 555555555555555250, 55524296216328084000000000),
  (8333333333333334800, 555555555555555250, 555555555555555250, 55524296216328084000000000),
  (555555555555555250, 555555555555555250, 7222222222222219900, 55524296216328084000000000),
  (555555555555555250, 1666666666666665200, 6111111111111109400, 55524296216328084000000000),
  (555555555555555250, 2777777777777780100, 5000000000000000000, 55524296216328084000000000),
  (555555555555555250, 3888888888888890100, 3888888888888890100, 55524296216328084000000000),
  (555555555555555250, 5000000000000000000, 2777777777777780100, 55524296216328084000000000),
  (555555555555555250, 6111111111111109400, 1666666666666665200, 55524296216328084000000000),
  (555555555555555250, 7222222222222219900, 555555555555555250, 55524296216328084000000000),
  (1666666666666665200, 555555555555555250, 6111111111111109400, 55524296216328084000000000),
  (1666666666666665200, 1666666666666665200, 5000000000000000000, 55524296216328084000000000),
  (1666666666666665200, 2777777777777780100, 3888888888888890100, 55524296216328084000000000),
  (1666666666666665200, 3888888888888890100, 2777777777777780100, 55524296216328084000000000),
  (1666666666666665200, 5000000000000000000, 1666666666666665200, 55524296216328084000000000),
  (1666666666666665200, 6111111111111109400, 555555555555555250, 55524296216328084000000000),
  (2777777777777780100, 555555555555555250, 5000000000000000000, 55524296216328084000000000),
  (2777777777777780100, 1666666666666665200, 3888888888888890100, 55524296216328084000000000),
  (2777777777777780100, 2777777777777780100, 2777777777777780100, 55524296216328084000000000),
  (2777777777777780100, 3888888888888890100, 1666666666666665200, 55524296216328084000000000),
  (2777777777777780100, 5000000000000000000, 555555555555555250, 55524296216328084000000000),
  (3888888888888890100, 555555555555555250, 3888888888888890100, 55524296216328084000000000),
  (3888888888888890100, 1666666666666665200, 2777777777777780100, 55524296216328084000000000),
  (3888888888888890100, 2777777777777780100, 1666666666666665200, 55524296216328084000000000),
  (3888888888888890100, 3888888888888890100, 555555555555555250, 55524296216328084000000000),
  (5000000000000000000, 555555555555555250, 2777777777777780100, 55524296216328084000000000),
  (5000000000000000000, 1666666666666665200, 1666666666666665200, 55524296216328084000000000),
  (5000000000000000000, 2777777777777780100, 555555555555555250, 55524296216328084000000000),
  (6111111111111109400, 555555555555555250, 1666666666666665200, 55524296216328084000000000),
  (6111111111111109400, 1666666666666665200, 555555555555555250, 55524296216328084000000000),
  (7222222222222219900, 555555555555555250, 555555555555555250, 55524296216328084000000000),
  (555555555555555250, 555555555555555250, 6111111111111109400, 55524296216328084000000000)]

/-- `IntegrationTypeTetrahedron.cpp:1815-1864`, part of the block commented `order 19` -/
def tetrahedron13_9 : List (ℤ × ℤ × ℤ × ℤ) := [
  (555555555555555250, 1666666666666665200, 5000000000000000000, 55524296216328084000000000),
  (555555555555555250, 2777777777777780100, 3888888888888890100, 55524296216328084000000000),
  (555555555555555250, 3888888888888890100, 2777777777777780100, 55524296216328084000000000),
  (555555555555555250, 5000000000000000000, 1666666666666665200, 55524296216328084000000000),
  (555555555555555250, 6111111111111109400, 555555555555555250, 55524296216328084000000000),
  (1666666666666665200, 555555555555555250, 5000000000000000000, 55524296216328084000000000),
  (1666666666666665200, 1666666666666665200, 3888888888888890100, 55524296216328084000000000),
  (1666666666666665200, 2777777777777780100, 2777777777777780100, 55524296216328084000000000),
  (1666666666666665200, 3888888888888890100, 1666666666666665200, 55524296216328084000000000),
  (1666666666666665200, 5000000000000000000, 555555555555555250, 55524296216328084000000000),
  (2777777777777780100, 555555555555555250, 3888888888888890100, 55524296216328084000000000),
  (2777777777777780100, 1666666666666665200, 2777777777777780100, 55524296216328084000000000),
  (2777777777777780100, 2777777777777780100, 1666666666666665200, 55524296216328084000000000),
  (2777777777777780100, 3888888888888890100, 555555555555555250, 55524296216328084000000000),
  (3888888888888890100, 555555555555555250, 2777777777777780100, 55524296216328084000000000),
  (3888888888888890100, 1666666666666665200, 1666666666666665200, 55524296216328084000000000),
  (3888888888888890100, 2777777777777780100, 555555555555555250, 55524296216328084000000000),
  (5000000000000000000, 555555555555555250, 1666666666666665200, 55524296216328084000000000),
  (5000000000000000000, 1666666666666665200, 555555555555555250, 55524296216328084000000000),
  (6111111111111109400, 555555555555555250, 555555555555555250, 55524296216328084000000000),
  (555555555555555250, 555555555555555250, 5000000000000000000, 55524296216328084000000000),
  (555555555555555250, 1666666666666665200, 3888888888888890100, 55524296216328084000000000),
  (555555555555555250, 2777777777777780100, 2777777777777780100, 55524296216328084000000000),
  (555555555555555250, 3888888888888890100, 1666666666666665200, 55524296216328084000000000),
  (555555555555555250, 5000000000000000000, 555555555555555250, 55524296216328084000000000),
  (1666666666666665200, 555555555555555250, 3888888888888890100, 55524296216328084000000000),
  (1666666666666665200, 1666666666666665200, 2777777777777780100, 55524296216328084000000000),
  (1666666666666665200, 2777777777777780100, 1666666666666665200, 55524296216328084000000000),
  (1666666666666665200, 3888888888888890100, 555555555555555250, 55524296216328084000000000),
  (2777777777777780100, 555555555555555250, 2777777777777780100, 55524296216328084000000000),
  (2777777777777780100, 1666666666666665200, 1666666666666665200, 55524296216328084000000000),
  (2777777777777780100, 2777777777777780100, 555555555555555250, 55524296216328084000000000),
  (3888888888888890100, 555555555555555250, 1666666666666665200, 55524296216328084000000000),
  (3888888888888890100, 1666666666666665200, 555555555555555250, 55524296216328084000000000),
  (5000000000000000000, 555555555555555250, 555555555555555250, 55524296216328084000000000),
  (555555555555555250, 555555555555555250, 3888888888888890100, 55524296216328084000000000),
  (555555555555555250, 1666666666666665200, 2777777777777780100, 55524296216328084000000000),
  (555555555555555250, 2777777777777780100, 1666666666666665200, 55524296216328084000000000),
  (555555555555555250, 3888888888888890100, 555555555555555250, 55524296216328084000000000),
  (1666666666666665200, 555555555555555250, 2777777777777780100, 55524296216328084000000000),
  (1666666666666665200, 1666666666666665200, 1666666666666665200, 55524296216328084000000000),
  (1666666666666665200, 2777777777777780100, 555555555555555250, 55524296216328084000000000),
  (2777777777777780100, 555555555555555250, 1666666666666665200, 55524296216328084000000000),
  (2777777777777780100, 1666666666666665200, 555555555555555250, 55524296216328084000000000),
  (3888888888888890100, 555555555555555250, 555555555555555250, 55524296216328084000000000),
  (555555555555555250, 555555555555555250, 2777777777777780100, 55524296216328084000000000),
  (555555555555555250, 1666666666666665200, 1666666666666665200, 55524296216328084000000000),
  (555555555555555250, 2777777777777780100, 555555555555555250, 55524296216328084000000000),
  (1666666666666665200, 555555555555555250, 1666666666666665200, 55524296216328084000000000),
  (1666666666666665200, 1666666666666665200, 555555555555555250, 55524296216328084000000000)]

/-- `IntegrationTypeTetrahedron.cpp:1865-1914`, part of the block commented `order 19` -/
def tetrahedron13_10 : List (ℤ × ℤ × ℤ × ℤ) := [
  (2777777777777780100, 555555555555555250, 555555555555555250, 55524296216328084000000000),
  (555555555555555250, 555555555555555250, 1666666666666665200, 55524296216328084000000000),
  (555555555555555250, 1666666666666665200, 555555555555555250, 55524296216328084000000000),
  (1666666666666665200, 555555555555555250, 555555555555555250, 55524296216328084000000000),
  (555555555555555250, 555555555555555250, 555555555555555250, 55524296216328084000000000),
  (625000000000000000, 625000000000000000, 8125000000000000000, (-39490613155675836000000000)),
  (625000000000000000, 1875000000000000000, 6875000000000000000, (-39490613155675836000000000)),
  (625000000000000000, 3125000000000000000, 5625000000000000000, (-39490613155675836000000000)),
  (625000000000000000, 4375000000000000000, 4375000000000000000, (-39490613155675836000000000)),
  (625000000000000000, 5625000000000000000, 3125000000000000000, (-39490613155675836000000000)),
  (625000000000000000, 6875000000000000000, 1875000000000000000, (-39490613155675836000000000)),
  (625000000000000000, 8125000000000000000, 625000000000000000, (-39490613155675836000000000)),
  (1875000000000000000, 625000000000000000, 6875000000000000000, (-39490613155675836000000000)),
  (1875000000000000000, 1875000000000000000, 5625000000000000000, (-39490613155675836000000000)),
  (1875000000000000000, 3125000000000000000, 4375000000000000000, (-39490613155675836000000000)),
  (1875000000000000000, 4375000000000000000, 3125000000000000000, (-39490613155675836000000000)),
  (1875000000000000000, 5625000000000000000, 1875000000000000000, (-39490613155675836000000000)),
  (1875000000000000000, 6875000000000000000, 625000000000000000, (-39490613155675836000000000)),
  (3125000000000000000, 625000000000000000, 5625000000000000000, (-39490613155675836000000000)),
  (3125000000000000000, 1875000000000000000, 4375000000000000000, (-39490613155675836000000000)),
  (3125000000000000000, 3125000000000000000, 3125000000000000000, (-39490613155675836000000000)),
  (3125000000000000000, 4375000000000000000, 1875000000000000000, (-39490613155675836000000000)),
  (3125000000000000000, 5625000000000000000, 625000000000000000, (-39490613155675836000000000)),
  (4375000000000000000, 625000000000000000, 4375000000000000000, (-39490613155675836000000000)),
  (4375000000000000000, 1875000000000000000, 3125000000000000000, (-39490613155675836000000000)),
  (4375000000000000000, 3125000000000000000, 1875000000000000000, (-39490613155675836000000000)),
  (4375000000000000000, 4375000000000000000, 625000000000000000, (-39490613155675836000000000)),
  (5625000000000000000, 625000000000000000, 3125000000000000000, (-39490613155675836000000000)),
  (5625000000000000000, 1875000000000000000, 1875000000000000000, (-39490613155675836000000000)),
  (5625000000000000000, 3125000000000000000, 625000000000000000, (-39490613155675836000000000)),
  (6875000000000000000, 625000000000000000, 1875000000000000000, (-39490613155675836000000000)),
  (6875000000000000000, 1875000000000000000, 625000000000000000, (-39490613155675836000000000)),
  (8125000000000000000, 625000000000000000, 625000000000000000, (-39490613155675836000000000)),
  (625000000000000000, 625000000000000000, 6875000000000000000, (-39490613155675836000000000)),
  (625000000000000000, 1875000000000000000, 5625000000000000000, (-39490613155675836000000000)),
  (625000000000000000, 3125000000000000000, 4375000000000000000, (-39490613155675836000000000)),
  (625000000000000000, 4375000000000000000, 3125000000000000000, (-39490613155675836000000000)),
  (625000000000000000, 5625000000000000000, 1875000000000000000, (-39490613155675836000000000)),
  (625000000000000000, 6875000000000000000, 625000000000000000, (-39490613155675836000000000)),
  (1875000000000000000, 625000000000000000, 5625000000000000000, (-39490613155675836000000000)),
  (1875000000000000000, 1875000000000000000, 4375000000000000000, (-39490613155675836000000000)),
  (1875000000000000000, 3125000000000000000, 3125000000000000000, (-39490613155675836000000000)),
  (1875000000000000000, 4375000000000000000, 1875000000000000000, (-39490613155675836000000000)),
  (1875000000000000000, 5625000000000000000, 625000000000000000, (-39490613155675836000000000)),
  (3125000000000000000, 625000000000000000, 4375000000000000000, (-39490613155675836000000000)),
  (3125000000000000000, 1875000000000000000, 3125000000000000000, (-39490613155675836000000000)),
  (3125000000000000000, 3125000000000000000, 1875000000000000000, (-39490613155675836000000000)),
  (3125000000000000000, 4375000000000000000, 625000000000000000, (-39490613155675836000000000)),
  (4375000000000000000, 625000000000000000, 3125000000000000000, (-39490613155675836000000000)),
  (4375000000000000000, 1875000000000000000, 1875000000000000000, (-39490613155675836000000000))]

/-- `IntegrationTypeTetrahedron.cpp:1915-1964`, part of the block commented `order 19` -/
def tetrahedron13_11 : List (ℤ × ℤ × ℤ × ℤ) := [
  (4375000000000000000, 3125000000000000000, 625000000000000000, (-39490613155675836000000000)),
  (5625000000000000000, 625000000000000000, 1875000000000000000, (-39490613155675836000000000)),
  (5625000000000000000, 1875000000000000000, 625000000000000000, (-39490613155675836000000000)),
  (6875000000000000000, 625000000000000000, 625000000000000000, (-39490613155675836000000000)),
  (625000000000000000, 625000000000000000, 5625000000000000000, (-39490613155675836000000000)),
  (625000000000000000, 1875000000000000000, 4375000000000000000, (-39490613155675836000000000)),
  (625000000000000000, 3125000000000000000, 3125000000000000000, (-39490613155675836000000000)),
  (625000000000000000, 4375000000000000000, 1875000000000000000, (-39490613155675836000000000)),
  (625000000000000000, 5625000000000000000, 625000000000000000, (-39490613155675836000000000)),
  (1875000000000000000, 625000000000000000, 4375000000000000000, (-39490613155675836000000000)),
  (1875000000000000000, 1875000000000000000, 3125000000000000000, (-39490613155675836000000000)),
  (1875000000000000000, 3125000000000000000, 1875000000000000000, (-39490613155675836000000000)),
  (1875000000000000000, 4375000000000000000, 625000000000000000, (-39490613155675836000000000)),
  (3125000000000000000, 625000000000000000, 3125000000000000000, (-39490613155675836000000000)),
  (3125000000000000000, 1875000000000000000, 1875000000000000000, (-39490613155675836000000000)),
  (3125000000000000000, 3125000000000000000, 625000000000000000, (-39490613155675836000000000)),
  (4375000000000000000, 625000000000000000, 1875000000000000000, (-39490613155675836000000000)),
  (4375000000000000000, 1875000000000000000, 625000000000000000, (-39490613155675836000000000)),
  (5625000000000000000, 625000000000000000, 625000000000000000, (-39490613155675836000000000)),
  (625000000000000000, 625000000000000000, 4375000000000000000, (-39490613155675836000000000)),
  (625000000000000000, 1875000000000000000, 3125000000000000000, (-39490613155675836000000000)),
  (625000000000000000, 3125000000000000000, 1875000000000000000, (-39490613155675836000000000)),
  (625000000000000000, 4375000000000000000, 625000000000000000, (-39490613155675836000000000)),
  (1875000000000000000, 625000000000000000, 3125000000000000000, (-39490613155675836000000000)),
  (1875000000000000000, 1875000000000000000, 1875000000000000000, (-39490613155675836000000000)),
  (1875000000000000000, 3125000000000000000, 625000000000000000, (-39490613155675836000000000)),
  (3125000000000000000, 625000000000000000, 1875000000000000000, (-39490613155675836000000000)),
  (3125000000000000000, 1875000000000000000, 625000000000000000, (-39490613155675836000000000)),
  (4375000000000000000, 625000000000000000, 625000000000000000, (-39490613155675836000000000)),
  (625000000000000000, 625000000000000000, 3125000000000000000, (-39490613155675836000000000)),
  (625000000000000000, 1875000000000000000, 1875000000000000000, (-39490613155675836000000000)),
  (625000000000000000, 3125000000000000000, 625000000000000000, (-39490613155675836000000000)),
  (1875000000000000000, 625000000000000000, 1875000000000000000, (-39490613155675836000000000)),
  (1875000000000000000, 1875000000000000000, 625000000000000000, (-39490613155675836000000000)),
  (3125000000000000000, 625000000000000000, 625000000000000000, (-39490613155675836000000000)),
  (625000000000000000, 625000000000000000, 1875000000000000000, (-39490613155675836000000000)),
  (625000000000000000, 1875000000000000000, 625000000000000000, (-39490613155675836000000000)),
  (1875000000000000000, 625000000000000000, 625000000000000000, (-39490613155675836000000000)),
  (625000000000000000, 625000000000000000, 625000000000000000, (-39490613155675836000000000)),
  (714285714285715080, 714285714285715080, 7857142857142854800, 14836808592797013000000000),
  (714285714285715080, 2142857142857145200, 6428571428571430200, 14836808592797013000000000),
  (714285714285715080, 3571428571428569800, 5000000000000000000, 14836808592797013000000000),
  (714285714285715080, 5000000000000000000, 3571428571428569800, 14836808592797013000000000),
  (714285714285715080, 6428571428571430200, 2142857142857145200, 14836808592797013000000000),
  (714285714285715080, 7857142857142854800, 714285714285715080, 14836808592797013000000000),
  (2142857142857145200, 714285714285715080, 6428571428571430200, 14836808592797013000000000),
  (2142857142857145200, 2142857142857145200, 5000000000000000000, 14836808592797013000000000),
  (2142857142857145200, 3571428571428569800, 3571428571428569800, 14836808592797013000000000),
  (2142857142857145200, 5000000000000000000, 2142857142857145200, 14836808592797013000000000),
  (2142857142857145200, 6428571428571430200, 714285714285715080, 14836808592797013000000000)]

/-- `IntegrationTypeTetrahedron.cpp:1965-2014`, part of the block commented `order 19` -/
def tetrahedron13_12 : List (ℤ × ℤ × ℤ × ℤ) := [
  (3571428571428569800, 714285714285715080, 5000000000000000000, 14836808592797013000000000),
  (3571428571428569800, 2142857142857145200, 3571428571428569800, 14836808592797013000000000),
  (3571428571428569800, 3571428571428569800, 2142857142857145200, 14836808592797013000000000),
  (3571428571428569800, 5000000000000000000, 714285714285715080, 14836808592797013000000000),
  (5000000000000000000, 714285714285715080, 3571428571428569800, 14836808592797013000000000),
  (5000000000000000000, 2142857142857145200, 2142857142857145200, 14836808592797013000000000),
  (5000000000000000000, 3571428571428569800, 714285714285715080, 14836808592797013000000000),
  (6428571428571430200, 714285714285715080, 2142857142857145200, 14836808592797013000000000),
  (6428571428571430200, 2142857142857145200, 714285714285715080, 14836808592797013000000000),
  (7857142857142854800, 714285714285715080, 714285714285715080, 14836808592797013000000000),
  (714285714285715080, 714285714285715080, 6428571428571430200, 14836808592797013000000000),
  (714285714285715080, 2142857142857145200, 5000000000000000000, 14836808592797013000000000),
  (714285714285715080, 3571428571428569800, 3571428571428569800, 14836808592797013000000000),
  (714285714285715080, 5000000000000000000, 2142857142857145200, 14836808592797013000000000),
  (714285714285715080, 6428571428571430200, 714285714285715080, 14836808592797013000000000),
  (2142857142857145200, 714285714285715080, 5000000000000000000, 14836808592797013000000000),
  (2142857142857145200, 2142857142857145200, 3571428571428569800, 14836808592797013000000000),
  (2142857142857145200, 3571428571428569800, 2142857142857145200, 14836808592797013000000000),
  (2142857142857145200, 5000000000000000000, 714285714285715080, 14836808592797013000000000),
  (3571428571428569800, 714285714285715080, 3571428571428569800, 14836808592797013000000000),
  (3571428571428569800, 2142857142857145200, 2142857142857145200, 14836808592797013000000000),
  (3571428571428569800, 3571428571428569800, 714285714285715080, 14836808592797013000000000),
  (5000000000000000000, 714285714285715080, 2142857142857145200, 14836808592797013000000000),
  (5000000000000000000, 2142857142857145200, 714285714285715080, 14836808592797013000000000),
  (6428571428571430200, 714285714285715080, 714285714285715080, 14836808592797013000000000),
  (714285714285715080, 714285714285715080, 5000000000000000000, 14836808592797013000000000),
  (714285714285715080, 2142857142857145200, 3571428571428569800, 14836808592797013000000000),
  (714285714285715080, 3571428571428569800, 2142857142857145200, 14836808592797013000000000),
  (714285714285715080, 5000000000000000000, 714285714285715080, 14836808592797013000000000),
  (2142857142857145200, 714285714285715080, 3571428571428569800, 14836808592797013000000000),
  (2142857142857145200, 2142857142857145200, 2142857142857145200, 14836808592797013000000000),
  (2142857142857145200, 3571428571428569800, 714285714285715080, 14836808592797013000000000),
  (3571428571428569800, 714285714285715080, 2142857142857145200, 14836808592797013000000000),
  (3571428571428569800, 2142857142857145200, 714285714285715080, 14836808592797013000000000),
  (5000000000000000000, 714285714285715080, 714285714285715080, 14836808592797013000000000),
  (714285714285715080, 714285714285715080, 3571428571428569800, 14836808592797013000000000),
  (714285714285715080, 2142857142857145200, 2142857142857145200, 14836808592797013000000000),
  (714285714285715080, 3571428571428569800, 714285714285715080, 14836808592797013000000000),
  (2142857142857145200, 714285714285715080, 2142857142857145200, 14836808592797013000000000),
  (2142857142857145200, 2142857142857145200, 714285714285715080, 14836808592797013000000000),
  (3571428571428569800, 714285714285715080, 714285714285715080, 14836808592797013000000000),
  (714285714285715080, 714285714285715080, 2142857142857145200, 14836808592797013000000000),
  (714285714285715080, 2142857142857145200, 714285714285715080, 14836808592797013000000000),
  (2142857142857145200, 714285714285715080, 714285714285715080, 14836808592797013000000000),
  (714285714285715080, 714285714285715080, 714285714285715080, 14836808592797013000000000),
  (833333333333334810, 833333333333334810, 7500000000000000000, (-2855314769264349900000000)),
  (833333333333334810, 2500000000000000000, 5833333333333334800, (-2855314769264349900000000)),
  (833333333333334810, 4166666666666665200, 4166666666666665200, (-2855314769264349900000000)),
  (833333333333334810, 5833333333333334800, 2500000000000000000, (-2855314769264349900000000)),
  (833333333333334810, 7500000000000000000, 833333333333334810, (-2855314769264349900000000))]

/-- `IntegrationTypeTetrahedron.cpp:2015-2064`, part of the block commented `order 19` -/
def tetrahedron13_13 : List (ℤ × ℤ × ℤ × ℤ) := [
  (2500000000000000000, 833333333333334810, 5833333333333334800, (-2855314769264349900000000)),
  (2500000000000000000, 2500000000000000000, 4166666666666665200, (-2855314769264349900000000)),
  (2500000000000000000, 4166666666666665200, 2500000000000000000, (-2855314769264349900000000)),
  (2500000000000000000, 5833333333333334800, 833333333333334810, (-2855314769264349900000000)),
  (4166666666666665200, 833333333333334810, 4166666666666665200, (-2855314769264349900000000)),
  (4166666666666665200, 2500000000000000000, 2500000000000000000, (-2855314769264349900000000)),
  (4166666666666665200, 4166666666666665200, 833333333333334810, (-2855314769264349900000000)),
  (5833333333333334800, 833333333333334810, 2500000000000000000, (-2855314769264349900000000)),
  (5833333333333334800, 2500000000000000000, 833333333333334810, (-2855314769264349900000000)),
  (7500000000000000000, 833333333333334810, 833333333333334810, (-2855314769264349900000000)),
  (833333333333334810, 833333333333334810, 5833333333333334800, (-2855314769264349900000000)),
  (833333333333334810, 2500000000000000000, 4166666666666665200, (-2855314769264349900000000)),
  (833333333333334810, 4166666666666665200, 2500000000000000000, (-2855314769264349900000000)),
  (833333333333334810, 5833333333333334800, 833333333333334810, (-2855314769264349900000000)),
  (2500000000000000000, 833333333333334810, 4166666666666665200, (-2855314769264349900000000)),
  (2500000000000000000, 2500000000000000000, 2500000000000000000, (-2855314769264349900000000)),
  (2500000000000000000, 4166666666666665200, 833333333333334810, (-2855314769264349900000000)),
  (4166666666666665200, 833333333333334810, 2500000000000000000, (-2855314769264349900000000)),
  (4166666666666665200, 2500000000000000000, 833333333333334810, (-2855314769264349900000000)),
  (5833333333333334800, 833333333333334810, 833333333333334810, (-2855314769264349900000000)),
  (833333333333334810, 833333333333334810, 4166666666666665200, (-2855314769264349900000000)),
  (833333333333334810, 2500000000000000000, 2500000000000000000, (-2855314769264349900000000)),
  (833333333333334810, 4166666666666665200, 833333333333334810, (-2855314769264349900000000)),
  (2500000000000000000, 833333333333334810, 2500000000000000000, (-2855314769264349900000000)),
  (2500000000000000000, 2500000000000000000, 833333333333334810, (-2855314769264349900000000)),
  (4166666666666665200, 833333333333334810, 833333333333334810, (-2855314769264349900000000)),
  (833333333333334810, 833333333333334810, 2500000000000000000, (-2855314769264349900000000)),
  (833333333333334810, 2500000000000000000, 833333333333334810, (-2855314769264349900000000)),
  (2500000000000000000, 833333333333334810, 833333333333334810, (-2855314769264349900000000)),
  (833333333333334810, 833333333333334810, 833333333333334810, (-2855314769264349900000000)),
  (999999999999999780, 999999999999999780, 6999999999999999600, 253225820985762510000000),
  (999999999999999780, 2999999999999999900, 5000000000000000000, 253225820985762510000000),
  (999999999999999780, 5000000000000000000, 2999999999999999900, 253225820985762510000000),
  (999999999999999780, 6999999999999999600, 999999999999999780, 253225820985762510000000),
  (2999999999999999900, 999999999999999780, 5000000000000000000, 253225820985762510000000),
  (2999999999999999900, 2999999999999999900, 2999999999999999900, 253225820985762510000000),
  (2999999999999999900, 5000000000000000000, 999999999999999780, 253225820985762510000000),
  (5000000000000000000, 999999999999999780, 2999999999999999900, 253225820985762510000000),
  (5000000000000000000, 2999999999999999900, 999999999999999780, 253225820985762510000000),
  (6999999999999999600, 999999999999999780, 999999999999999780, 253225820985762510000000),
  (999999999999999780, 999999999999999780, 5000000000000000000, 253225820985762510000000),
  (999999999999999780, 2999999999999999900, 2999999999999999900, 253225820985762510000000),
  (999999999999999780, 5000000000000000000, 999999999999999780, 253225820985762510000000),
  (2999999999999999900, 999999999999999780, 2999999999999999900, 253225820985762510000000),
  (2999999999999999900, 2999999999999999900, 999999999999999780, 253225820985762510000000),
  (5000000000000000000, 999999999999999780, 999999999999999780, 253225820985762510000000),
  (999999999999999780, 999999999999999780, 2999999999999999900, 253225820985762510000000),
  (999999999999999780, 2999999999999999900, 999999999999999780, 253225820985762510000000),
  (2999999999999999900, 999999999999999780, 999999999999999780, 253225820985762510000000),
  (999999999999999780, 999999999999999780, 999999999999999780, 253225820985762510000000)]

/-- `IntegrationTypeTetrahedron.cpp:2065-2079`, part of the block commented `order 19` -/
def tetrahedron13_14 : List (ℤ × ℤ × ℤ × ℤ) := [
  (1250000000000000000, 1250000000000000000, 6250000000000000000, (-8341414129600000400000)),
  (1250000000000000000, 3750000000000000000, 3750000000000000000, (-8341414129600000400000)),
  (1250000000000000000, 6250000000000000000, 1250000000000000000, (-8341414129600000400000)),
  (3750000000000000000, 1250000000000000000, 3750000000000000000, (-8341414129600000400000)),
  (3750000000000000000, 3750000000000000000, 1250000000000000000, (-8341414129600000400000)),
  (6250000000000000000, 1250000000000000000, 1250000000000000000, (-8341414129600000400000)),
  (1250000000000000000, 1250000000000000000, 3750000000000000000, (-8341414129600000400000)),
  (1250000000000000000, 3750000000000000000, 1250000000000000000, (-8341414129600000400000)),
  (3750000000000000000, 1250000000000000000, 1250000000000000000, (-8341414129600000400000)),
  (1250000000000000000, 1250000000000000000, 1250000000000000000, (-8341414129600000400000)),
  (1666666666666665200, 1666666666666665200, 5000000000000000000, 66130980187499997000),
  (1666666666666665200, 5000000000000000000, 1666666666666665200, 66130980187499997000),
  (5000000000000000000, 1666666666666665200, 1666666666666665200, 66130980187499997000),
  (1666666666666665200, 1666666666666665200, 1666666666666665200, 66130980187499997000),
  (2500000000000000000, 2500000000000000000, 2500000000000000000, (-46404125000000002))]

/-- `IntegrationTypeTetrahedron.cpp:1364-2079`, commented `order 19` -/
def tetrahedron13 : List (ℤ × ℤ × ℤ × ℤ) :=
  tetrahedron13_0 ++ (tetrahedron13_1 ++ (tetrahedron13_2 ++ (tetrahedron13_3 ++ (tetrahedron13_4 ++ (tetrahedron13_5 ++ (tetrahedron13_6 ++ (tetrahedron13_7 ++ (tetrahedron13_8 ++ (tetrahedron13_9 ++ (tetrahedron13_10 ++ (tetrahedron13_11 ++ (tetrahedron13_12 ++ (tetrahedron13_13 ++ (tetrahedron13_14))))))))))))))

/-- `IntegrationTypeTetrahedron.cpp:2081-2130`, part of the block commented `order 21` -/
def tetrahedron14_0 : List (ℤ × ℤ × ℤ × ℤ) := [
  (416666666666665190, 416666666666665190, 8750000000000000000, 14829636044142638000000000),
  (416666666666665190, 1250000000000000000, 7916666666666665200, 14829636044142638000000000),
  (416666666666665190, 2083333333333334800, 7083333333333334800, 14829636044142638000000000),
  (416666666666665190, 2916666666666665200, 6250000000000000000, 14829636044142638000000000),
  (416666666666665190, 3750000000000000000, 5416666666666665200, 14829636044142638000000000),
  (416666666666665190, 4583333333333334800, 4583333333333334800, 14829636044142638000000000),
  (416666666666665190, 5416666666666665200, 3750000000000000000, 14829636044142638000000000),
  (416666666666665190, 6250000000000000000, 2916666666666665200, 14829636044142638000000000),
  (416666666666665190, 7083333333333334800, 2083333333333334800, 14829636044142638000000000),
  (416666666666665190, 7916666666666665200, 1250000000000000000, 14829636044142638000000000),
  (416666666666665190, 8750000000000000000, 416666666666665190, 14829636044142638000000000),
  (1250000000000000000, 416666666666665190, 7916666666666665200, 14829636044142638000000000),
  (1250000000000000000, 1250000000000000000, 7083333333333334800, 14829636044142638000000000),
  (1250000000000000000, 2083333333333334800, 6250000000000000000, 14829636044142638000000000),
  (1250000000000000000, 2916666666666665200, 5416666666666665200, 14829636044142638000000000),
  (1250000000000000000, 3750000000000000000, 4583333333333334800, 14829636044142638000000000),
  (1250000000000000000, 4583333333333334800, 3750000000000000000, 14829636044142638000000000),
  (1250000000000000000, 5416666666666665200, 2916666666666665200, 14829636044142638000000000),
  (1250000000000000000, 6250000000000000000, 2083333333333334800, 14829636044142638000000000),
  (1250000000000000000, 7083333333333334800, 1250000000000000000, 14829636044142638000000000),
  (1250000000000000000, 7916666666666665200, 416666666666665190, 14829636044142638000000000),
  (2083333333333334800, 416666666666665190, 7083333333333334800, 14829636044142638000000000),
  (2083333333333334800, 1250000000000000000, 6250000000000000000, 14829636044142638000000000),
  (2083333333333334800, 2083333333333334800, 5416666666666665200, 14829636044142638000000000),
  (2083333333333334800, 2916666666666665200, 4583333333333334800, 14829636044142638000000000),
  (2083333333333334800, 3750000000000000000, 3750000000000000000, 14829636044142638000000000),
  (2083333333333334800, 4583333333333334800, 2916666666666665200, 14829636044142638000000000),
  (2083333333333334800, 5416666666666665200, 2083333333333334800, 14829636044142638000000000),
  (2083333333333334800, 6250000000000000000, 1250000000000000000, 14829636044142638000000000),
  (2083333333333334800, 7083333333333334800, 416666666666665190, 14829636044142638000000000),
  (2916666666666665200, 416666666666665190, 6250000000000000000, 14829636044142638000000000),
  (2916666666666665200, 1250000000000000000, 5416666666666665200, 14829636044142638000000000),
  (2916666666666665200, 2083333333333334800, 4583333333333334800, 14829636044142638000000000),
  (2916666666666665200, 2916666666666665200, 3750000000000000000, 14829636044142638000000000),
  (2916666666666665200, 3750000000000000000, 2916666666666665200, 14829636044142638000000000),
  (2916666666666665200, 4583333333333334800, 2083333333333334800, 14829636044142638000000000),
  (2916666666666665200, 5416666666666665200, 1250000000000000000, 14829636044142638000000000),
  (2916666666666665200, 6250000000000000000, 416666666666665190, 14829636044142638000000000),
  (3750000000000000000, 416666666666665190, 5416666666666665200, 14829636044142638000000000),
  (3750000000000000000, 1250000000000000000, 4583333333333334800, 14829636044142638000000000),
  (3750000000000000000, 2083333333333334800, 3750000000000000000, 14829636044142638000000000),
  (3750000000000000000, 2916666666666665200, 2916666666666665200, 14829636044142638000000000),
  (3750000000000000000, 3750000000000000000, 2083333333333334800, 14829636044142638000000000),
  (3750000000000000000, 4583333333333334800, 1250000000000000000, 14829636044142638000000000),
  (3750000000000000000, 5416666666666665200, 416666666666665190, 14829636044142638000000000),
  (4583333333333334800, 416666666666665190, 4583333333333334800, 14829636044142638000000000),
  (4583333333333334800, 1250000000000000000, 3750000000000000000, 14829636044142638000000000),
  (4583333333333334800, 2083333333333334800, 2916666666666665200, 14829636044142638000000000),
  (4583333333333334800, 2916666666666665200, 2083333333333334800, 14829636044142638000000000),
  (4583333333333334800, 3750000000000000000, 1250000000000000000, 14829636044142638000000000)]

/-- `IntegrationTypeTetrahedron.cpp:2131-2180`, part of the block commented `order 21` -/
def tetrahedron14_1 : List (ℤ × ℤ × ℤ × ℤ) := [
  (4583333333333334800, 4583333333333334800, 416666666666665190, 14829636044142638000000000),
  (5416666666666665200, 416666666666665190, 3750000000000000000, 14829636044142638000000000),
  (5416666666666665200, 1250000000000000000, 2916666666666665200, 14829636044142638000000000),
  (5416666666666665200, 2083333333333334800, 2083333333333334800, 14829636044142638000000000),
  (5416666666666665200, 2916666666666665200, 1250000000000000000, 14829636044142638000000000),
  (5416666666666665200, 3750000000000000000, 416666666666665190, 14829636044142638000000000),
  (6250000000000000000, 416666666666665190, 2916666666666665200, 14829636044142638000000000),
  (6250000000000000000, 1250000000000000000, 2083333333333334800, 14829636044142638000000000),
  (6250000000000000000, 2083333333333334800, 1250000000000000000, 14829636044142638000000000),
  (6250000000000000000, 2916666666666665200, 416666666666665190, 14829636044142638000000000),
  (7083333333333334800, 416666666666665190, 2083333333333334800, 14829636044142638000000000),
  (7083333333333334800, 1250000000000000000, 1250000000000000000, 14829636044142638000000000),
  (7083333333333334800, 2083333333333334800, 416666666666665190, 14829636044142638000000000),
  (7916666666666665200, 416666666666665190, 1250000000000000000, 14829636044142638000000000),
  (7916666666666665200, 1250000000000000000, 416666666666665190, 14829636044142638000000000),
  (8750000000000000000, 416666666666665190, 416666666666665190, 14829636044142638000000000),
  (416666666666665190, 416666666666665190, 7916666666666665200, 14829636044142638000000000),
  (416666666666665190, 1250000000000000000, 7083333333333334800, 14829636044142638000000000),
  (416666666666665190, 2083333333333334800, 6250000000000000000, 14829636044142638000000000),
  (416666666666665190, 2916666666666665200, 5416666666666665200, 14829636044142638000000000),
  (416666666666665190, 3750000000000000000, 4583333333333334800, 14829636044142638000000000),
  (416666666666665190, 4583333333333334800, 3750000000000000000, 14829636044142638000000000),
  (416666666666665190, 5416666666666665200, 2916666666666665200, 14829636044142638000000000),
  (416666666666665190, 6250000000000000000, 2083333333333334800, 14829636044142638000000000),
  (416666666666665190, 7083333333333334800, 1250000000000000000, 14829636044142638000000000),
  (416666666666665190, 7916666666666665200, 416666666666665190, 14829636044142638000000000),
  (1250000000000000000, 416666666666665190, 7083333333333334800, 14829636044142638000000000),
  (1250000000000000000, 1250000000000000000, 6250000000000000000, 14829636044142638000000000),
  (1250000000000000000, 2083333333333334800, 5416666666666665200, 14829636044142638000000000),
  (1250000000000000000, 2916666666666665200, 4583333333333334800, 14829636044142638000000000),
  (1250000000000000000, 3750000000000000000, 3750000000000000000, 14829636044142638000000000),
  (1250000000000000000, 4583333333333334800, 2916666666666665200, 14829636044142638000000000),
  (1250000000000000000, 5416666666666665200, 2083333333333334800, 14829636044142638000000000),
  (1250000000000000000, 6250000000000000000, 1250000000000000000, 14829636044142638000000000),
  (1250000000000000000, 7083333333333334800, 416666666666665190, 14829636044142638000000000),
  (2083333333333334800, 416666666666665190, 6250000000000000000, 14829636044142638000000000),
  (2083333333333334800, 1250000000000000000, 5416666666666665200, 14829636044142638000000000),
  (2083333333333334800, 2083333333333334800, 4583333333333334800, 14829636044142638000000000),
  (2083333333333334800, 2916666666666665200, 3750000000000000000, 14829636044142638000000000),
  (2083333333333334800, 3750000000000000000, 2916666666666665200, 14829636044142638000000000),
  (2083333333333334800, 4583333333333334800, 2083333333333334800, 14829636044142638000000000),
  (2083333333333334800, 5416666666666665200, 1250000000000000000, 14829636044142638000000000),
  (2083333333333334800, 6250000000000000000, 416666666666665190, 14829636044142638000000000),
  (2916666666666665200, 416666666666665190, 5416666666666665200, 14829636044142638000000000),
  (2916666666666665200, 1250000000000000000, 4583333333333334800, 14829636044142638000000000),
  (2916666666666665200, 2083333333333334800, 3750000000000000000, 14829636044142638000000000),
  (2916666666666665200, 2916666666666665200, 2916666666666665200, 14829636044142638000000000),
  (2916666666666665200, 3750000000000000000, 2083333333333334800, 14829636044142638000000000),
  (2916666666666665200, 4583333333333334800, 1250000000000000000, 14829636044142638000000000),
  (2916666666666665200, 5416666666666665200, 416666666666665190, 14829636044142638000000000)]

/-- `IntegrationTypeTetrahedron.cpp:2181-2230`, part of the block commented `order 21` -/
def tetrahedron14_2 : List (ℤ × ℤ × ℤ × ℤ) := [
  (3750000000000000000, 416666666666665190, 4583333333333334800, 14829636044142638000000000),
  (3750000000000000000, 1250000000000000000, 3750000000000000000, 14829636044142638000000000),
  (3750000000000000000, 2083333333333334800, 2916666666666665200, 14829636044142638000000000),
  (3750000000000000000, 2916666666666665200, 2083333333333334800, 14829636044142638000000000),
  (3750000000000000000, 3750000000000000000, 1250000000000000000, 14829636044142638000000000),
  (3750000000000000000, 4583333333333334800, 416666666666665190, 14829636044142638000000000),
  (4583333333333334800, 416666666666665190, 3750000000000000000, 14829636044142638000000000),
  (4583333333333334800, 1250000000000000000, 2916666666666665200, 14829636044142638000000000),
  (4583333333333334800, 2083333333333334800, 2083333333333334800, 14829636044142638000000000),
  (4583333333333334800, 2916666666666665200, 1250000000000000000, 14829636044142638000000000),
  (4583333333333334800, 3750000000000000000, 416666666666665190, 14829636044142638000000000),
  (5416666666666665200, 416666666666665190, 2916666666666665200, 14829636044142638000000000),
  (5416666666666665200, 1250000000000000000, 2083333333333334800, 14829636044142638000000000),
  (5416666666666665200, 2083333333333334800, 1250000000000000000, 14829636044142638000000000),
  (5416666666666665200, 2916666666666665200, 416666666666665190, 14829636044142638000000000),
  (6250000000000000000, 416666666666665190, 2083333333333334800, 14829636044142638000000000),
  (6250000000000000000, 1250000000000000000, 1250000000000000000, 14829636044142638000000000),
  (6250000000000000000, 2083333333333334800, 416666666666665190, 14829636044142638000000000),
  (7083333333333334800, 416666666666665190, 1250000000000000000, 14829636044142638000000000),
  (7083333333333334800, 1250000000000000000, 416666666666665190, 14829636044142638000000000),
  (7916666666666665200, 416666666666665190, 416666666666665190, 14829636044142638000000000),
  (416666666666665190, 416666666666665190, 7083333333333334800, 14829636044142638000000000),
  (416666666666665190, 1250000000000000000, 6250000000000000000, 14829636044142638000000000),
  (416666666666665190, 2083333333333334800, 5416666666666665200, 14829636044142638000000000),
  (416666666666665190, 2916666666666665200, 4583333333333334800, 14829636044142638000000000),
  (416666666666665190, 3750000000000000000, 3750000000000000000, 14829636044142638000000000),
  (416666666666665190, 4583333333333334800, 2916666666666665200, 14829636044142638000000000),
  (416666666666665190, 5416666666666665200, 2083333333333334800, 14829636044142638000000000),
  (416666666666665190, 6250000000000000000, 1250000000000000000, 14829636044142638000000000),
  (416666666666665190, 7083333333333334800, 416666666666665190, 14829636044142638000000000),
  (1250000000000000000, 416666666666665190, 6250000000000000000, 14829636044142638000000000),
  (1250000000000000000, 1250000000000000000, 5416666666666665200, 14829636044142638000000000),
  (1250000000000000000, 2083333333333334800, 4583333333333334800, 14829636044142638000000000),
  (1250000000000000000, 2916666666666665200, 3750000000000000000, 14829636044142638000000000),
  (1250000000000000000, 3750000000000000000, 2916666666666665200, 14829636044142638000000000),
  (1250000000000000000, 4583333333333334800, 2083333333333334800, 14829636044142638000000000),
  (1250000000000000000, 5416666666666665200, 1250000000000000000, 14829636044142638000000000),
  (1250000000000000000, 6250000000000000000, 416666666666665190, 14829636044142638000000000),
  (2083333333333334800, 416666666666665190, 5416666666666665200, 14829636044142638000000000),
  (2083333333333334800, 1250000000000000000, 4583333333333334800, 14829636044142638000000000),
  (2083333333333334800, 2083333333333334800, 3750000000000000000, 14829636044142638000000000),
  (2083333333333334800, 2916666666666665200, 2916666666666665200, 14829636044142638000000000),
  (2083333333333334800, 3750000000000000000, 2083333333333334800, 14829636044142638000000000),
  (2083333333333334800, 4583333333333334800, 1250000000000000000, 14829636044142638000000000),
  (2083333333333334800, 5416666666666665200, 416666666666665190, 14829636044142638000000000),
  (2916666666666665200, 416666666666665190, 4583333333333334800, 14829636044142638000000000),
  (2916666666666665200, 1250000000000000000, 3750000000000000000, 14829636044142638000000000),
  (2916666666666665200, 2083333333333334800, 2916666666666665200, 14829636044142638000000000),
  (2916666666666665200, 2916666666666665200, 2083333333333334800, 14829636044142638000000000),
  (2916666666666665200, 3750000000000000000, 1250000000000000000, 14829636044142638000000000)]

/-- `IntegrationTypeTetrahedron.cpp:2231-2280`, part of the block commented `order 21` -/
def tetrahedron14_3 : List (ℤ × ℤ × ℤ × ℤ) := [
  (2916666666666665200, 4583333333333334800, 416666666666665190, 14829636044142638000000000),
  (3750000000000000000, 416666666666665190, 3750000000000000000, 14829636044142638000000000),
  (3750000000000000000, 1250000000000000000, 2916666666666665200, 14829636044142638000000000),
  (3750000000000000000, 2083333333333334800, 2083333333333334800, 14829636044142638000000000),
  (3750000000000000000, 2916666666666665200, 1250000000000000000, 14829636044142638000000000),
  (3750000000000000000, 3750000000000000000, 416666666666665190, 14829636044142638000000000),
  (4583333333333334800, 416666666666665190, 2916666666666665200, 14829636044142638000000000),
  (4583333333333334800, 1250000000000000000, 2083333333333334800, 14829636044142638000000000),
  (4583333333333334800, 2083333333333334800, 1250000000000000000, 14829636044142638000000000),
  (4583333333333334800, 2916666666666665200, 416666666666665190, 14829636044142638000000000),
  (5416666666666665200, 416666666666665190, 2083333333333334800, 14829636044142638000000000),
  (5416666666666665200, 1250000000000000000, 1250000000000000000, 14829636044142638000000000),
  (5416666666666665200, 2083333333333334800, 416666666666665190, 14829636044142638000000000),
  (6250000000000000000, 416666666666665190, 1250000000000000000, 14829636044142638000000000),
  (6250000000000000000, 1250000000000000000, 416666666666665190, 14829636044142638000000000),
  (7083333333333334800, 416666666666665190, 416666666666665190, 14829636044142638000000000),
  (416666666666665190, 416666666666665190, 6250000000000000000, 14829636044142638000000000),
  (416666666666665190, 1250000000000000000, 5416666666666665200, 14829636044142638000000000),
  (416666666666665190, 2083333333333334800, 4583333333333334800, 14829636044142638000000000),
  (416666666666665190, 2916666666666665200, 3750000000000000000, 14829636044142638000000000),
  (416666666666665190, 3750000000000000000, 2916666666666665200, 14829636044142638000000000),
  (416666666666665190, 4583333333333334800, 2083333333333334800, 14829636044142638000000000),
  (416666666666665190, 5416666666666665200, 1250000000000000000, 14829636044142638000000000),
  (416666666666665190, 6250000000000000000, 416666666666665190, 14829636044142638000000000),
  (1250000000000000000, 416666666666665190, 5416666666666665200, 14829636044142638000000000),
  (1250000000000000000, 1250000000000000000, 4583333333333334800, 14829636044142638000000000),
  (1250000000000000000, 2083333333333334800, 3750000000000000000, 14829636044142638000000000),
  (1250000000000000000, 2916666666666665200, 2916666666666665200, 14829636044142638000000000),
  (1250000000000000000, 3750000000000000000, 2083333333333334800, 14829636044142638000000000),
  (1250000000000000000, 4583333333333334800, 1250000000000000000, 14829636044142638000000000),
  (1250000000000000000, 5416666666666665200, 416666666666665190, 14829636044142638000000000),
  (2083333333333334800, 416666666666665190, 4583333333333334800, 14829636044142638000000000),
  (2083333333333334800, 1250000000000000000, 3750000000000000000, 14829636044142638000000000),
  (2083333333333334800, 2083333333333334800, 2916666666666665200, 14829636044142638000000000),
  (2083333333333334800, 2916666666666665200, 2083333333333334800, 14829636044142638000000000),
  (2083333333333334800, 3750000000000000000, 1250000000000000000, 14829636044142638000000000),
  (2083333333333334800, 4583333333333334800, 416666666666665190, 14829636044142638000000000),
  (2916666666666665200, 416666666666665190, 3750000000000000000, 14829636044142638000000000),
  (2916666666666665200, 1250000000000000000, 2916666666666665200, 14829636044142638000000000),
  (2916666666666665200, 2083333333333334800, 2083333333333334800, 14829636044142638000000000),
  (2916666666666665200, 2916666666666665200, 1250000000000000000, 14829636044142638000000000),
  (2916666666666665200, 3750000000000000000, 416666666666665190, 14829636044142638000000000),
  (3750000000000000000, 416666666666665190, 2916666666666665200, 14829636044142638000000000),
  (3750000000000000000, 1250000000000000000, 2083333333333334800, 14829636044142638000000000),
  (3750000000000000000, 2083333333333334800, 1250000000000000000, 14829636044142638000000000),
  (3750000000000000000, 2916666666666665200, 416666666666665190, 14829636044142638000000000),
  (4583333333333334800, 416666666666665190, 2083333333333334800, 14829636044142638000000000),
  (4583333333333334800, 1250000000000000000, 1250000000000000000, 14829636044142638000000000),
  (4583333333333334800, 2083333333333334800, 416666666666665190, 14829636044142638000000000),
  (5416666666666665200, 416666666666665190, 1250000000000000000, 14829636044142638000000000)]

/-- `IntegrationTypeTetrahedron.cpp:2281-2330`, part of the block commented `order 21` -/
def tetrahedron14_4 : List (ℤ × ℤ × ℤ × ℤ) := [
  (5416666666666665200, 1250000000000000000, 416666666666665190, 14829636044142638000000000),
  (6250000000000000000, 416666666666665190, 416666666666665190, 14829636044142638000000000),
  (416666666666665190, 416666666666665190, 5416666666666665200, 14829636044142638000000000),
  (416666666666665190, 1250000000000000000, 4583333333333334800, 14829636044142638000000000),
  (416666666666665190, 2083333333333334800, 3750000000000000000, 14829636044142638000000000),
  (416666666666665190, 2916666666666665200, 2916666666666665200, 14829636044142638000000000),
  (416666666666665190, 3750000000000000000, 2083333333333334800, 14829636044142638000000000),
  (416666666666665190, 4583333333333334800, 1250000000000000000, 14829636044142638000000000),
  (416666666666665190, 5416666666666665200, 416666666666665190, 14829636044142638000000000),
  (1250000000000000000, 416666666666665190, 4583333333333334800, 14829636044142638000000000),
  (1250000000000000000, 1250000000000000000, 3750000000000000000, 14829636044142638000000000),
  (1250000000000000000, 2083333333333334800, 2916666666666665200, 14829636044142638000000000),
  (1250000000000000000, 2916666666666665200, 2083333333333334800, 14829636044142638000000000),
  (1250000000000000000, 3750000000000000000, 1250000000000000000, 14829636044142638000000000),
  (1250000000000000000, 4583333333333334800, 416666666666665190, 14829636044142638000000000),
  (2083333333333334800, 416666666666665190, 3750000000000000000, 14829636044142638000000000),
  (2083333333333334800, 1250000000000000000, 2916666666666665200, 14829636044142638000000000),
  (2083333333333334800, 2083333333333334800, 2083333333333334800, 14829636044142638000000000),
  (2083333333333334800, 2916666666666665200, 1250000000000000000, 14829636044142638000000000),
  (2083333333333334800, 3750000000000000000, 416666666666665190, 14829636044142638000000000),
  (2916666666666665200, 416666666666665190, 2916666666666665200, 14829636044142638000000000),
  (2916666666666665200, 1250000000000000000, 2083333333333334800, 14829636044142638000000000),
  (2916666666666665200, 2083333333333334800, 1250000000000000000, 14829636044142638000000000),
  (2916666666666665200, 2916666666666665200, 416666666666665190, 14829636044142638000000000),
  (3750000000000000000, 416666666666665190, 2083333333333334800, 14829636044142638000000000),
  (3750000000000000000, 1250000000000000000, 1250000000000000000, 14829636044142638000000000),
  (3750000000000000000, 2083333333333334800, 416666666666665190, 14829636044142638000000000),
  (4583333333333334800, 416666666666665190, 1250000000000000000, 14829636044142638000000000),
  (4583333333333334800, 1250000000000000000, 416666666666665190, 14829636044142638000000000),
  (5416666666666665200, 416666666666665190, 416666666666665190, 14829636044142638000000000),
  (416666666666665190, 416666666666665190, 4583333333333334800, 14829636044142638000000000),
  (416666666666665190, 1250000000000000000, 3750000000000000000, 14829636044142638000000000),
  (416666666666665190, 2083333333333334800, 2916666666666665200, 14829636044142638000000000),
  (416666666666665190, 2916666666666665200, 2083333333333334800, 14829636044142638000000000),
  (416666666666665190, 3750000000000000000, 1250000000000000000, 14829636044142638000000000),
  (416666666666665190, 4583333333333334800, 416666666666665190, 14829636044142638000000000),
  (1250000000000000000, 416666666666665190, 3750000000000000000, 14829636044142638000000000),
  (1250000000000000000, 1250000000000000000, 2916666666666665200, 14829636044142638000000000),
  (1250000000000000000, 2083333333333334800, 2083333333333334800, 14829636044142638000000000),
  (1250000000000000000, 2916666666666665200, 1250000000000000000, 14829636044142638000000000),
  (1250000000000000000, 3750000000000000000, 416666666666665190, 14829636044142638000000000),
  (2083333333333334800, 416666666666665190, 2916666666666665200, 14829636044142638000000000),
  (2083333333333334800, 1250000000000000000, 2083333333333334800, 14829636044142638000000000),
  (2083333333333334800, 2083333333333334800, 1250000000000000000, 14829636044142638000000000),
  (2083333333333334800, 2916666666666665200, 416666666666665190, 14829636044142638000000000),
  (2916666666666665200, 416666666666665190, 2083333333333334800, 14829636044142638000000000),
  (2916666666666665200, 1250000000000000000, 1250000000000000000, 14829636044142638000000000),
  (2916666666666665200, 2083333333333334800, 416666666666665190, 14829636044142638000000000),
  (3750000000000000000, 416666666666665190, 1250000000000000000, 14829636044142638000000000),
  (3750000000000000000, 1250000000000000000, 416666666666665190, 14829636044142638000000000)]

/-- `IntegrationTypeTetrahedron.cpp:2331-2380`, part of the block commented `order 21` -/
def tetrahedron14_5 : List (ℤ × ℤ × ℤ × ℤ) := [
  (4583333333333334800, 416666666666665190, 416666666666665190, 14829636044142638000000000),
  (416666666666665190, 416666666666665190, 3750000000000000000, 14829636044142638000000000),
  (416666666666665190, 1250000000000000000, 2916666666666665200, 14829636044142638000000000),
  (416666666666665190, 2083333333333334800, 2083333333333334800, 14829636044142638000000000),
  (416666666666665190, 2916666666666665200, 1250000000000000000, 14829636044142638000000000),
  (416666666666665190, 3750000000000000000, 416666666666665190, 14829636044142638000000000),
  (1250000000000000000, 416666666666665190, 2916666666666665200, 14829636044142638000000000),
  (1250000000000000000, 1250000000000000000, 2083333333333334800, 14829636044142638000000000),
  (1250000000000000000, 2083333333333334800, 1250000000000000000, 14829636044142638000000000),
  (1250000000000000000, 2916666666666665200, 416666666666665190, 14829636044142638000000000),
  (2083333333333334800, 416666666666665190, 2083333333333334800, 14829636044142638000000000),
  (2083333333333334800, 1250000000000000000, 1250000000000000000, 14829636044142638000000000),
  (2083333333333334800, 2083333333333334800, 416666666666665190, 14829636044142638000000000),
  (2916666666666665200, 416666666666665190, 1250000000000000000, 14829636044142638000000000),
  (2916666666666665200, 1250000000000000000, 416666666666665190, 14829636044142638000000000),
  (3750000000000000000, 416666666666665190, 416666666666665190, 14829636044142638000000000),
  (416666666666665190, 416666666666665190, 2916666666666665200, 14829636044142638000000000),
  (416666666666665190, 1250000000000000000, 2083333333333334800, 14829636044142638000000000),
  (416666666666665190, 2083333333333334800, 1250000000000000000, 14829636044142638000000000),
  (416666666666665190, 2916666666666665200, 416666666666665190, 14829636044142638000000000),
  (1250000000000000000, 416666666666665190, 2083333333333334800, 14829636044142638000000000),
  (1250000000000000000, 1250000000000000000, 1250000000000000000, 14829636044142638000000000),
  (1250000000000000000, 2083333333333334800, 416666666666665190, 14829636044142638000000000),
  (2083333333333334800, 416666666666665190, 1250000000000000000, 14829636044142638000000000),
  (2083333333333334800, 1250000000000000000, 416666666666665190, 14829636044142638000000000),
  (2916666666666665200, 416666666666665190, 416666666666665190, 14829636044142638000000000),
  (416666666666665190, 416666666666665190, 2083333333333334800, 14829636044142638000000000),
  (416666666666665190, 1250000000000000000, 1250000000000000000, 14829636044142638000000000),
  (416666666666665190, 2083333333333334800, 416666666666665190, 14829636044142638000000000),
  (1250000000000000000, 416666666666665190, 1250000000000000000, 14829636044142638000000000),
  (1250000000000000000, 1250000000000000000, 416666666666665190, 14829636044142638000000000),
  (2083333333333334800, 416666666666665190, 416666666666665190, 14829636044142638000000000),
  (416666666666665190, 416666666666665190, 1250000000000000000, 14829636044142638000000000),
  (416666666666665190, 1250000000000000000, 416666666666665190, 14829636044142638000000000),
  (1250000000000000000, 416666666666665190, 416666666666665190, 14829636044142638000000000),
  (416666666666665190, 416666666666665190, 416666666666665190, 14829636044142638000000000),
  (454545454545455250, 454545454545455250, 8636363636363635400, (-57250852179181599000000000)),
  (454545454545455250, 1363636363636365200, 7727272727272724900, (-57250852179181599000000000)),
  (454545454545455250, 2272727272727275100, 6818181818181819900, (-57250852179181599000000000)),
  (454545454545455250, 3181818181818180100, 5909090909090910500, (-57250852179181599000000000)),
  (454545454545455250, 4090909090909090100, 5000000000000000000, (-57250852179181599000000000)),
  (454545454545455250, 5000000000000000000, 4090909090909090100, (-57250852179181599000000000)),
  (454545454545455250, 5909090909090910500, 3181818181818180100, (-57250852179181599000000000)),
  (454545454545455250, 6818181818181819900, 2272727272727275100, (-57250852179181599000000000)),
  (454545454545455250, 7727272727272724900, 1363636363636365200, (-57250852179181599000000000)),
  (454545454545455250, 8636363636363635400, 454545454545455250, (-57250852179181599000000000)),
  (1363636363636365200, 454545454545455250, 7727272727272724900, (-57250852179181599000000000)),
  (1363636363636365200, 1363636363636365200, 6818181818181819900, (-57250852179181599000000000)),
  (1363636363636365200, 2272727272727275100, 5909090909090910500, (-57250852179181599000000000)),
  (1363636363636365200, 3181818181818180100, 5000000000000000000, (-57250852179181599000000000))]

/-- `IntegrationTypeTetrahedron.cpp:2381-2430`, part of the block commented `order 21` -/
def tetrahedron14_6 : List (ℤ × ℤ × ℤ × ℤ) := [
  (1363636363636365200, 4090909090909090100, 4090909090909090100, (-57250852179181599000000000)),
  (1363636363636365200, 5000000000000000000, 3181818181818180100, (-57250852179181599000000000)),
  (1363636363636365200, 5909090909090910500, 2272727272727275100, (-57250852179181599000000000)),
  (1363636363636365200, 6818181818181819900, 1363636363636365200, (-57250852179181599000000000)),
  (1363636363636365200, 7727272727272724900, 454545454545455250, (-57250852179181599000000000)),
  (2272727272727275100, 454545454545455250, 6818181818181819900, (-57250852179181599000000000)),
  (2272727272727275100, 1363636363636365200, 5909090909090910500, (-57250852179181599000000000)),
  (2272727272727275100, 2272727272727275100, 5000000000000000000, (-57250852179181599000000000)),
  (2272727272727275100, 3181818181818180100, 4090909090909090100, (-57250852179181599000000000)),
  (2272727272727275100, 4090909090909090100, 3181818181818180100, (-57250852179181599000000000)),
  (2272727272727275100, 5000000000000000000, 2272727272727275100, (-57250852179181599000000000)),
  (2272727272727275100, 5909090909090910500, 1363636363636365200, (-57250852179181599000000000)),
  (2272727272727275100, 6818181818181819900, 454545454545455250, (-57250852179181599000000000)),
  (3181818181818180100, 454545454545455250, 5909090909090910500, (-57250852179181599000000000)),
  (3181818181818180100, 1363636363636365200, 5000000000000000000, (-57250852179181599000000000)),
  (3181818181818180100, 2272727272727275100, 4090909090909090100, (-57250852179181599000000000)),
  (3181818181818180100, 3181818181818180100, 3181818181818180100, (-57250852179181599000000000)),
  (3181818181818180100, 4090909090909090100, 2272727272727275100, (-57250852179181599000000000)),
  (3181818181818180100, 5000000000000000000, 1363636363636365200, (-57250852179181599000000000)),
  (3181818181818180100, 5909090909090910500, 454545454545455250, (-57250852179181599000000000)),
  (4090909090909090100, 454545454545455250, 5000000000000000000, (-57250852179181599000000000)),
  (4090909090909090100, 1363636363636365200, 4090909090909090100, (-57250852179181599000000000)),
  (4090909090909090100, 2272727272727275100, 3181818181818180100, (-57250852179181599000000000)),
  (4090909090909090100, 3181818181818180100, 2272727272727275100, (-57250852179181599000000000)),
  (4090909090909090100, 4090909090909090100, 1363636363636365200, (-57250852179181599000000000)),
  (4090909090909090100, 5000000000000000000, 454545454545455250, (-57250852179181599000000000)),
  (5000000000000000000, 454545454545455250, 4090909090909090100, (-57250852179181599000000000)),
  (5000000000000000000, 1363636363636365200, 3181818181818180100, (-57250852179181599000000000)),
  (5000000000000000000, 2272727272727275100, 2272727272727275100, (-57250852179181599000000000)),
  (5000000000000000000, 3181818181818180100, 1363636363636365200, (-57250852179181599000000000)),
  (5000000000000000000, 4090909090909090100, 454545454545455250, (-57250852179181599000000000)),
  (5909090909090910500, 454545454545455250, 3181818181818180100, (-57250852179181599000000000)),
  (5909090909090910500, 1363636363636365200, 2272727272727275100, (-57250852179181599000000000)),
  (5909090909090910500, 2272727272727275100, 1363636363636365200, (-57250852179181599000000000)),
  (5909090909090910500, 3181818181818180100, 454545454545455250, (-57250852179181599000000000)),
  (6818181818181819900, 454545454545455250, 2272727272727275100, (-57250852179181599000000000)),
  (6818181818181819900, 1363636363636365200, 1363636363636365200, (-57250852179181599000000000)),
  (6818181818181819900, 2272727272727275100, 454545454545455250, (-57250852179181599000000000)),
  (7727272727272724900, 454545454545455250, 1363636363636365200, (-57250852179181599000000000)),
  (7727272727272724900, 1363636363636365200, 454545454545455250, (-57250852179181599000000000)),
  (8636363636363635400, 454545454545455250, 454545454545455250, (-57250852179181599000000000)),
  (454545454545455250, 454545454545455250, 7727272727272724900, (-57250852179181599000000000)),
  (454545454545455250, 1363636363636365200, 6818181818181819900, (-57250852179181599000000000)),
  (454545454545455250, 2272727272727275100, 5909090909090910500, (-57250852179181599000000000)),
  (454545454545455250, 3181818181818180100, 5000000000000000000, (-57250852179181599000000000)),
  (454545454545455250, 4090909090909090100, 4090909090909090100, (-57250852179181599000000000)),
  (454545454545455250, 5000000000000000000, 3181818181818180100, (-57250852179181599000000000)),
  (454545454545455250, 5909090909090910500, 2272727272727275100, (-57250852179181599000000000)),
  (454545454545455250, 6818181818181819900, 1363636363636365200, (-57250852179181599000000000)),
  (454545454545455250, 7727272727272724900, 454545454545455250, (-57250852179181599000000000))]

/-- `IntegrationTypeTetrahedron.cpp:2431-2480`, part of the block commented `order 21` -/
def tetrahedron14_7 : List (ℤ × ℤ × ℤ × ℤ) := [
  (1363636363636365200, 454545454545455250, 6818181818181819900, (-57250852179181599000000000)),
  (1363636363636365200, 1363636363636365200, 5909090909090910500, (-57250852179181599000000000)),
  (1363636363636365200, 2272727272727275100, 5000000000000000000, (-57250852179181599000000000)),
  (1363636363636365200, 3181818181818180100, 4090909090909090100, (-57250852179181599000000000)),
  (1363636363636365200, 4090909090909090100, 3181818181818180100, (-57250852179181599000000000)),
  (1363636363636365200, 5000000000000000000, 2272727272727275100, (-57250852179181599000000000)),
  (1363636363636365200, 5909090909090910500, 1363636363636365200, (-57250852179181599000000000)),
  (1363636363636365200, 6818181818181819900, 454545454545455250, (-57250852179181599000000000)),
  (2272727272727275100, 454545454545455250, 5909090909090910500, (-57250852179181599000000000)),
  (2272727272727275100, 1363636363636365200, 5000000000000000000, (-57250852179181599000000000)),
  (2272727272727275100, 2272727272727275100, 4090909090909090100, (-57250852179181599000000000)),
  (2272727272727275100, 3181818181818180100, 3181818181818180100, (-57250852179181599000000000)),
  (2272727272727275100, 4090909090909090100, 2272727272727275100, (-57250852179181599000000000)),
  (2272727272727275100, 5000000000000000000, 1363636363636365200, (-57250852179181599000000000)),
  (2272727272727275100, 5909090909090910500, 454545454545455250, (-57250852179181599000000000)),
  (3181818181818180100, 454545454545455250, 5000000000000000000, (-57250852179181599000000000)),
  (3181818181818180100, 1363636363636365200, 4090909090909090100, (-57250852179181599000000000)),
  (3181818181818180100, 2272727272727275100, 3181818181818180100, (-57250852179181599000000000)),
  (3181818181818180100, 3181818181818180100, 2272727272727275100, (-57250852179181599000000000)),
  (3181818181818180100, 4090909090909090100, 1363636363636365200, (-57250852179181599000000000)),
  (3181818181818180100, 5000000000000000000, 454545454545455250, (-57250852179181599000000000)),
  (4090909090909090100, 454545454545455250, 4090909090909090100, (-57250852179181599000000000)),
  (4090909090909090100, 1363636363636365200, 3181818181818180100, (-57250852179181599000000000)),
  (4090909090909090100, 2272727272727275100, 2272727272727275100, (-57250852179181599000000000)),
  (4090909090909090100, 3181818181818180100, 1363636363636365200, (-57250852179181599000000000)),
  (4090909090909090100, 4090909090909090100, 454545454545455250, (-57250852179181599000000000)),
  (5000000000000000000, 454545454545455250, 3181818181818180100, (-57250852179181599000000000)),
  (5000000000000000000, 1363636363636365200, 2272727272727275100, (-57250852179181599000000000)),
  (5000000000000000000, 2272727272727275100, 1363636363636365200, (-57250852179181599000000000)),
  (5000000000000000000, 3181818181818180100, 454545454545455250, (-57250852179181599000000000)),
  (5909090909090910500, 454545454545455250, 2272727272727275100, (-57250852179181599000000000)),
  (5909090909090910500, 1363636363636365200, 1363636363636365200, (-57250852179181599000000000)),
  (5909090909090910500, 2272727272727275100, 454545454545455250, (-57250852179181599000000000)),
  (6818181818181819900, 454545454545455250, 1363636363636365200, (-57250852179181599000000000)),
  (6818181818181819900, 1363636363636365200, 454545454545455250, (-57250852179181599000000000)),
  (7727272727272724900, 454545454545455250, 454545454545455250, (-57250852179181599000000000)),
  (454545454545455250, 454545454545455250, 6818181818181819900, (-57250852179181599000000000)),
  (454545454545455250, 1363636363636365200, 5909090909090910500, (-57250852179181599000000000)),
  (454545454545455250, 2272727272727275100, 5000000000000000000, (-57250852179181599000000000)),
  (454545454545455250, 3181818181818180100, 4090909090909090100, (-57250852179181599000000000)),
  (454545454545455250, 4090909090909090100, 3181818181818180100, (-57250852179181599000000000)),
  (454545454545455250, 5000000000000000000, 2272727272727275100, (-57250852179181599000000000)),
  (454545454545455250, 5909090909090910500, 1363636363636365200, (-57250852179181599000000000)),
  (454545454545455250, 6818181818181819900, 454545454545455250, (-57250852179181599000000000)),
  (1363636363636365200, 454545454545455250, 5909090909090910500, (-57250852179181599000000000)),
  (1363636363636365200, 1363636363636365200, 5000000000000000000, (-57250852179181599000000000)),
  (1363636363636365200, 2272727272727275100, 4090909090909090100, (-57250852179181599000000000)),
  (1363636363636365200, 3181818181818180100, 3181818181818180100, (-57250852179181599000000000)),
  (1363636363636365200, 4090909090909090100, 2272727272727275100, (-57250852179181599000000000)),
  (1363636363636365200, 5000000000000000000, 1363636363636365200, (-57250852179181599000000000))]

/-- `IntegrationTypeTetrahedron.cpp:2481-2530`, part of the block commented `order 21` -/
def tetrahedron14_8 : List (ℤ × ℤ × ℤ × ℤ) := [
  (1363636363636365200, 5909090909090910500, 454545454545455250, (-57250852179181599000000000)),
  (2272727272727275100, 454545454545455250, 5000000000000000000, (-57250852179181599000000000)),
  (2272727272727275100, 1363636363636365200, 4090909090909090100, (-57250852179181599000000000)),
  (2272727272727275100, 2272727272727275100, 3181818181818180100, (-57250852179181599000000000)),
  (2272727272727275100, 3181818181818180100, 2272727272727275100, (-57250852179181599000000000)),
  (2272727272727275100, 4090909090909090100, 1363636363636365200, (-57250852179181599000000000)),
  (2272727272727275100, 5000000000000000000, 454545454545455250, (-57250852179181599000000000)),
  (3181818181818180100, 454545454545455250, 4090909090909090100, (-57250852179181599000000000)),
  (3181818181818180100, 1363636363636365200, 3181818181818180100, (-57250852179181599000000000)),
  (3181818181818180100, 2272727272727275100, 2272727272727275100, (-57250852179181599000000000)),
  (3181818181818180100, 3181818181818180100, 1363636363636365200, (-57250852179181599000000000)),
  (3181818181818180100, 4090909090909090100, 454545454545455250, (-57250852179181599000000000)),
  (4090909090909090100, 454545454545455250, 3181818181818180100, (-57250852179181599000000000)),
  (4090909090909090100, 1363636363636365200, 2272727272727275100, (-57250852179181599000000000)),
  (4090909090909090100, 2272727272727275100, 1363636363636365200, (-57250852179181599000000000)),
  (4090909090909090100, 3181818181818180100, 454545454545455250, (-57250852179181599000000000)),
  (5000000000000000000, 454545454545455250, 2272727272727275100, (-57250852179181599000000000)),
  (5000000000000000000, 1363636363636365200, 1363636363636365200, (-57250852179181599000000000)),
  (5000000000000000000, 2272727272727275100, 454545454545455250, (-57250852179181599000000000)),
  (5909090909090910500, 454545454545455250, 1363636363636365200, (-57250852179181599000000000)),
  (5909090909090910500, 1363636363636365200, 454545454545455250, (-57250852179181599000000000)),
  (6818181818181819900, 454545454545455250, 454545454545455250, (-57250852179181599000000000)),
  (454545454545455250, 454545454545455250, 5909090909090910500, (-57250852179181599000000000)),
  (454545454545455250, 1363636363636365200, 5000000000000000000, (-57250852179181599000000000)),
  (454545454545455250, 2272727272727275100, 4090909090909090100, (-57250852179181599000000000)),
  (454545454545455250, 3181818181818180100, 3181818181818180100, (-57250852179181599000000000)),
  (454545454545455250, 4090909090909090100, 2272727272727275100, (-57250852179181599000000000)),
  (454545454545455250, 5000000000000000000, 1363636363636365200, (-57250852179181599000000000)),
  (454545454545455250, 5909090909090910500, 454545454545455250, (-57250852179181599000000000)),
  (1363636363636365200, 454545454545455250, 5000000000000000000, (-57250852179181599000000000)),
  (1363636363636365200, 1363636363636365200, 4090909090909090100, (-57250852179181599000000000)),
  (1363636363636365200, 2272727272727275100, 3181818181818180100, (-57250852179181599000000000)),
  (1363636363636365200, 3181818181818180100, 2272727272727275100, (-57250852179181599000000000)),
  (1363636363636365200, 4090909090909090100, 1363636363636365200, (-57250852179181599000000000)),
  (1363636363636365200, 5000000000000000000, 454545454545455250, (-57250852179181599000000000)),
  (2272727272727275100, 454545454545455250, 4090909090909090100, (-57250852179181599000000000)),
  (2272727272727275100, 1363636363636365200, 3181818181818180100, (-57250852179181599000000000)),
  (2272727272727275100, 2272727272727275100, 2272727272727275100, (-57250852179181599000000000)),
  (2272727272727275100, 3181818181818180100, 1363636363636365200, (-57250852179181599000000000)),
  (2272727272727275100, 4090909090909090100, 454545454545455250, (-57250852179181599000000000)),
  (3181818181818180100, 454545454545455250, 3181818181818180100, (-57250852179181599000000000)),
  (3181818181818180100, 1363636363636365200, 2272727272727275100, (-57250852179181599000000000)),
  (3181818181818180100, 2272727272727275100, 1363636363636365200, (-57250852179181599000000000)),
  (3181818181818180100, 3181818181818180100, 454545454545455250, (-57250852179181599000000000)),
  (4090909090909090100, 454545454545455250, 2272727272727275100, (-57250852179181599000000000)),
  (4090909090909090100, 1363636363636365200, 1363636363636365200, (-57250852179181599000000000)),
  (4090909090909090100, 2272727272727275100, 454545454545455250, (-57250852179181599000000000)),
  (5000000000000000000, 454545454545455250, 1363636363636365200, (-57250852179181599000000000)),
  (5000000000000000000, 1363636363636365200, 454545454545455250, (-57250852179181599000000000)),
  (5909090909090910500, 454545454545455250, 454545454545455250, (-57250852179181599000000000))]

/-- `IntegrationTypeTetrahedron.cpp:2531-2580`, part of the block commented `order 21` -/
def tetrahedron14_9 : List (ℤ × ℤ × ℤ × ℤ) := [
  (454545454545455250, 454545454545455250, 5000000000000000000, (-57250852179181599000000000)),
  (454545454545455250, 1363636363636365200, 4090909090909090100, (-57250852179181599000000000)),
  (454545454545455250, 2272727272727275100, 3181818181818180100, (-57250852179181599000000000)),
  (454545454545455250, 3181818181818180100, 2272727272727275100, (-57250852179181599000000000)),
  (454545454545455250, 4090909090909090100, 1363636363636365200, (-57250852179181599000000000)),
  (454545454545455250, 5000000000000000000, 454545454545455250, (-57250852179181599000000000)),
  (1363636363636365200, 454545454545455250, 4090909090909090100, (-57250852179181599000000000)),
  (1363636363636365200, 1363636363636365200, 3181818181818180100, (-57250852179181599000000000)),
  (1363636363636365200, 2272727272727275100, 2272727272727275100, (-57250852179181599000000000)),
  (1363636363636365200, 3181818181818180100, 1363636363636365200, (-57250852179181599000000000)),
  (1363636363636365200, 4090909090909090100, 454545454545455250, (-57250852179181599000000000)),
  (2272727272727275100, 454545454545455250, 3181818181818180100, (-57250852179181599000000000)),
  (2272727272727275100, 1363636363636365200, 2272727272727275100, (-57250852179181599000000000)),
  (2272727272727275100, 2272727272727275100, 1363636363636365200, (-57250852179181599000000000)),
  (2272727272727275100, 3181818181818180100, 454545454545455250, (-57250852179181599000000000)),
  (3181818181818180100, 454545454545455250, 2272727272727275100, (-57250852179181599000000000)),
  (3181818181818180100, 1363636363636365200, 1363636363636365200, (-57250852179181599000000000)),
  (3181818181818180100, 2272727272727275100, 454545454545455250, (-57250852179181599000000000)),
  (4090909090909090100, 454545454545455250, 1363636363636365200, (-57250852179181599000000000)),
  (4090909090909090100, 1363636363636365200, 454545454545455250, (-57250852179181599000000000)),
  (5000000000000000000, 454545454545455250, 454545454545455250, (-57250852179181599000000000)),
  (454545454545455250, 454545454545455250, 4090909090909090100, (-57250852179181599000000000)),
  (454545454545455250, 1363636363636365200, 3181818181818180100, (-57250852179181599000000000)),
  (454545454545455250, 2272727272727275100, 2272727272727275100, (-57250852179181599000000000)),
  (454545454545455250, 3181818181818180100, 1363636363636365200, (-57250852179181599000000000)),
  (454545454545455250, 4090909090909090100, 454545454545455250, (-57250852179181599000000000)),
  (1363636363636365200, 454545454545455250, 3181818181818180100, (-57250852179181599000000000)),
  (1363636363636365200, 1363636363636365200, 2272727272727275100, (-57250852179181599000000000)),
  (1363636363636365200, 2272727272727275100, 1363636363636365200, (-57250852179181599000000000)),
  (1363636363636365200, 3181818181818180100, 454545454545455250, (-57250852179181599000000000)),
  (2272727272727275100, 454545454545455250, 2272727272727275100, (-57250852179181599000000000)),
  (2272727272727275100, 1363636363636365200, 1363636363636365200, (-57250852179181599000000000)),
  (2272727272727275100, 2272727272727275100, 454545454545455250, (-57250852179181599000000000)),
  (3181818181818180100, 454545454545455250, 1363636363636365200, (-57250852179181599000000000)),
  (3181818181818180100, 1363636363636365200, 454545454545455250, (-57250852179181599000000000)),
  (4090909090909090100, 454545454545455250, 454545454545455250, (-57250852179181599000000000)),
  (454545454545455250, 454545454545455250, 3181818181818180100, (-57250852179181599000000000)),
  (454545454545455250, 1363636363636365200, 2272727272727275100, (-57250852179181599000000000)),
  (454545454545455250, 2272727272727275100, 1363636363636365200, (-57250852179181599000000000)),
  (454545454545455250, 3181818181818180100, 454545454545455250, (-57250852179181599000000000)),
  (1363636363636365200, 454545454545455250, 2272727272727275100, (-57250852179181599000000000)),
  (1363636363636365200, 1363636363636365200, 1363636363636365200, (-57250852179181599000000000)),
  (1363636363636365200, 2272727272727275100, 454545454545455250, (-57250852179181599000000000)),
  (2272727272727275100, 454545454545455250, 1363636363636365200, (-57250852179181599000000000)),
  (2272727272727275100, 1363636363636365200, 454545454545455250, (-57250852179181599000000000)),
  (3181818181818180100, 454545454545455250, 454545454545455250, (-57250852179181599000000000)),
  (454545454545455250, 454545454545455250, 2272727272727275100, (-57250852179181599000000000)),
  (454545454545455250, 1363636363636365200, 1363636363636365200, (-57250852179181599000000000)),
  (454545454545455250, 2272727272727275100, 454545454545455250, (-57250852179181599000000000)),
  (1363636363636365200, 454545454545455250, 1363636363636365200, (-57250852179181599000000000))]

/-- `IntegrationTypeTetrahedron.cpp:2581-2630`, part of the block commented `order 21` -/
def tetrahedron14_10 : List (ℤ × ℤ × ℤ × ℤ) := [
  (1363636363636365200, 1363636363636365200, 454545454545455250, (-57250852179181599000000000)),
  (2272727272727275100, 454545454545455250, 454545454545455250, (-57250852179181599000000000)),
  (454545454545455250, 454545454545455250, 1363636363636365200, (-57250852179181599000000000)),
  (454545454545455250, 1363636363636365200, 454545454545455250, (-57250852179181599000000000)),
  (1363636363636365200, 454545454545455250, 454545454545455250, (-57250852179181599000000000)),
  (454545454545455250, 454545454545455250, 454545454545455250, (-57250852179181599000000000)),
  (499999999999999890, 499999999999999890, 8499999999999999800, 88967913924505737000000000),
  (499999999999999890, 1500000000000000200, 7500000000000000000, 88967913924505737000000000),
  (499999999999999890, 2500000000000000000, 6500000000000000200, 88967913924505737000000000),
  (499999999999999890, 3499999999999999800, 5500000000000000400, 88967913924505737000000000),
  (499999999999999890, 4500000000000000100, 4500000000000000100, 88967913924505737000000000),
  (499999999999999890, 5500000000000000400, 3499999999999999800, 88967913924505737000000000),
  (499999999999999890, 6500000000000000200, 2500000000000000000, 88967913924505737000000000),
  (499999999999999890, 7500000000000000000, 1500000000000000200, 88967913924505737000000000),
  (499999999999999890, 8499999999999999800, 499999999999999890, 88967913924505737000000000),
  (1500000000000000200, 499999999999999890, 7500000000000000000, 88967913924505737000000000),
  (1500000000000000200, 1500000000000000200, 6500000000000000200, 88967913924505737000000000),
  (1500000000000000200, 2500000000000000000, 5500000000000000400, 88967913924505737000000000),
  (1500000000000000200, 3499999999999999800, 4500000000000000100, 88967913924505737000000000),
  (1500000000000000200, 4500000000000000100, 3499999999999999800, 88967913924505737000000000),
  (1500000000000000200, 5500000000000000400, 2500000000000000000, 88967913924505737000000000),
  (1500000000000000200, 6500000000000000200, 1500000000000000200, 88967913924505737000000000),
  (1500000000000000200, 7500000000000000000, 499999999999999890, 88967913924505737000000000),
  (2500000000000000000, 499999999999999890, 6500000000000000200, 88967913924505737000000000),
  (2500000000000000000, 1500000000000000200, 5500000000000000400, 88967913924505737000000000),
  (2500000000000000000, 2500000000000000000, 4500000000000000100, 88967913924505737000000000),
  (2500000000000000000, 3499999999999999800, 3499999999999999800, 88967913924505737000000000),
  (2500000000000000000, 4500000000000000100, 2500000000000000000, 88967913924505737000000000),
  (2500000000000000000, 5500000000000000400, 1500000000000000200, 88967913924505737000000000),
  (2500000000000000000, 6500000000000000200, 499999999999999890, 88967913924505737000000000),
  (3499999999999999800, 499999999999999890, 5500000000000000400, 88967913924505737000000000),
  (3499999999999999800, 1500000000000000200, 4500000000000000100, 88967913924505737000000000),
  (3499999999999999800, 2500000000000000000, 3499999999999999800, 88967913924505737000000000),
  (3499999999999999800, 3499999999999999800, 2500000000000000000, 88967913924505737000000000),
  (3499999999999999800, 4500000000000000100, 1500000000000000200, 88967913924505737000000000),
  (3499999999999999800, 5500000000000000400, 499999999999999890, 88967913924505737000000000),
  (4500000000000000100, 499999999999999890, 4500000000000000100, 88967913924505737000000000),
  (4500000000000000100, 1500000000000000200, 3499999999999999800, 88967913924505737000000000),
  (4500000000000000100, 2500000000000000000, 2500000000000000000, 88967913924505737000000000),
  (4500000000000000100, 3499999999999999800, 1500000000000000200, 88967913924505737000000000),
  (4500000000000000100, 4500000000000000100, 499999999999999890, 88967913924505737000000000),
  (5500000000000000400, 499999999999999890, 3499999999999999800, 88967913924505737000000000),
  (5500000000000000400, 1500000000000000200, 2500000000000000000, 88967913924505737000000000),
  (5500000000000000400, 2500000000000000000, 1500000000000000200, 88967913924505737000000000),
  (5500000000000000400, 3499999999999999800, 499999999999999890, 88967913924505737000000000),
  (6500000000000000200, 499999999999999890, 2500000000000000000, 88967913924505737000000000),
  (6500000000000000200, 1500000000000000200, 1500000000000000200, 88967913924505737000000000),
  (6500000000000000200, 2500000000000000000, 499999999999999890, 88967913924505737000000000),
  (7500000000000000000, 499999999999999890, 1500000000000000200, 88967913924505737000000000),
  (7500000000000000000, 1500000000000000200, 499999999999999890, 88967913924505737000000000)]

/-- `IntegrationTypeTetrahedron.cpp:2631-2680`, part of the block commented `order 21` -/
def tetrahedron14_11 : List (ℤ × ℤ × ℤ × ℤ) := [
  (8499999999999999800, 499999999999999890, 499999999999999890, 88967913924505737000000000),
  (499999999999999890, 499999999999999890, 7500000000000000000, 88967913924505737000000000),
  (499999999999999890, 1500000000000000200, 6500000000000000200, 88967913924505737000000000),
  (499999999999999890, 2500000000000000000, 5500000000000000400, 88967913924505737000000000),
  (499999999999999890, 3499999999999999800, 4500000000000000100, 88967913924505737000000000),
  (499999999999999890, 4500000000000000100, 3499999999999999800, 88967913924505737000000000),
  (499999999999999890, 5500000000000000400, 2500000000000000000, 88967913924505737000000000),
  (499999999999999890, 6500000000000000200, 1500000000000000200, 88967913924505737000000000),
  (499999999999999890, 7500000000000000000, 499999999999999890, 88967913924505737000000000),
  (1500000000000000200, 499999999999999890, 6500000000000000200, 88967913924505737000000000),
  (1500000000000000200, 1500000000000000200, 5500000000000000400, 88967913924505737000000000),
  (1500000000000000200, 2500000000000000000, 4500000000000000100, 88967913924505737000000000),
  (1500000000000000200, 3499999999999999800, 3499999999999999800, 88967913924505737000000000),
  (1500000000000000200, 4500000000000000100, 2500000000000000000, 88967913924505737000000000),
  (1500000000000000200, 5500000000000000400, 1500000000000000200, 88967913924505737000000000),
  (1500000000000000200, 6500000000000000200, 499999999999999890, 88967913924505737000000000),
  (2500000000000000000, 499999999999999890, 5500000000000000400, 88967913924505737000000000),
  (2500000000000000000, 1500000000000000200, 4500000000000000100, 88967913924505737000000000),
  (2500000000000000000, 2500000000000000000, 3499999999999999800, 88967913924505737000000000),
  (2500000000000000000, 3499999999999999800, 2500000000000000000, 88967913924505737000000000),
  (2500000000000000000, 4500000000000000100, 1500000000000000200, 88967913924505737000000000),
  (2500000000000000000, 5500000000000000400, 499999999999999890, 88967913924505737000000000),
  (3499999999999999800, 499999999999999890, 4500000000000000100, 88967913924505737000000000),
  (3499999999999999800, 1500000000000000200, 3499999999999999800, 88967913924505737000000000),
  (3499999999999999800, 2500000000000000000, 2500000000000000000, 88967913924505737000000000),
  (3499999999999999800, 3499999999999999800, 1500000000000000200, 88967913924505737000000000),
  (3499999999999999800, 4500000000000000100, 499999999999999890, 88967913924505737000000000),
  (4500000000000000100, 499999999999999890, 3499999999999999800, 88967913924505737000000000),
  (4500000000000000100, 1500000000000000200, 2500000000000000000, 88967913924505737000000000),
  (4500000000000000100, 2500000000000000000, 1500000000000000200, 88967913924505737000000000),
  (4500000000000000100, 3499999999999999800, 499999999999999890, 88967913924505737000000000),
  (5500000000000000400, 499999999999999890, 2500000000000000000, 88967913924505737000000000),
  (5500000000000000400, 1500000000000000200, 1500000000000000200, 88967913924505737000000000),
  (5500000000000000400, 2500000000000000000, 499999999999999890, 88967913924505737000000000),
  (6500000000000000200, 499999999999999890, 1500000000000000200, 88967913924505737000000000),
  (6500000000000000200, 1500000000000000200, 499999999999999890, 88967913924505737000000000),
  (7500000000000000000, 499999999999999890, 499999999999999890, 88967913924505737000000000),
  (499999999999999890, 499999999999999890, 6500000000000000200, 88967913924505737000000000),
  (499999999999999890, 1500000000000000200, 5500000000000000400, 88967913924505737000000000),
  (499999999999999890, 2500000000000000000, 4500000000000000100, 88967913924505737000000000),
  (499999999999999890, 3499999999999999800, 3499999999999999800, 88967913924505737000000000),
  (499999999999999890, 4500000000000000100, 2500000000000000000, 88967913924505737000000000),
  (499999999999999890, 5500000000000000400, 1500000000000000200, 88967913924505737000000000),
  (499999999999999890, 6500000000000000200, 499999999999999890, 88967913924505737000000000),
  (1500000000000000200, 499999999999999890, 5500000000000000400, 88967913924505737000000000),
  (1500000000000000200, 1500000000000000200, 4500000000000000100, 88967913924505737000000000),
  (1500000000000000200, 2500000000000000000, 3499999999999999800, 88967913924505737000000000),
  (1500000000000000200, 3499999999999999800, 2500000000000000000, 88967913924505737000000000),
  (1500000000000000200, 4500000000000000100, 1500000000000000200, 88967913924505737000000000),
  (1500000000000000200, 5500000000000000400, 499999999999999890, 88967913924505737000000000)]

/-- `IntegrationTypeTetrahedron.cpp:2681-2730`, part of the block commented `order 21` -/
def tetrahedron14_12 : List (ℤ × ℤ × ℤ × ℤ) := [
  (2500000000000000000, 499999999999999890, 4500000000000000100, 88967913924505737000000000),
  (2500000000000000000, 1500000000000000200, 3499999999999999800, 88967913924505737000000000),
  (2500000000000000000, 2500000000000000000, 2500000000000000000, 88967913924505737000000000),
  (2500000000000000000, 3499999999999999800, 1500000000000000200, 88967913924505737000000000),
  (2500000000000000000, 4500000000000000100, 499999999999999890, 88967913924505737000000000),
  (3499999999999999800, 499999999999999890, 3499999999999999800, 88967913924505737000000000),
  (3499999999999999800, 1500000000000000200, 2500000000000000000, 88967913924505737000000000),
  (3499999999999999800, 2500000000000000000, 1500000000000000200, 88967913924505737000000000),
  (3499999999999999800, 3499999999999999800, 499999999999999890, 88967913924505737000000000),
  (4500000000000000100, 499999999999999890, 2500000000000000000, 88967913924505737000000000),
  (4500000000000000100, 1500000000000000200, 1500000000000000200, 88967913924505737000000000),
  (4500000000000000100, 2500000000000000000, 499999999999999890, 88967913924505737000000000),
  (5500000000000000400, 499999999999999890, 1500000000000000200, 88967913924505737000000000),
  (5500000000000000400, 1500000000000000200, 499999999999999890, 88967913924505737000000000),
  (6500000000000000200, 499999999999999890, 499999999999999890, 88967913924505737000000000),
  (499999999999999890, 499999999999999890, 5500000000000000400, 88967913924505737000000000),
  (499999999999999890, 1500000000000000200, 4500000000000000100, 88967913924505737000000000),
  (499999999999999890, 2500000000000000000, 3499999999999999800, 88967913924505737000000000),
  (499999999999999890, 3499999999999999800, 2500000000000000000, 88967913924505737000000000),
  (499999999999999890, 4500000000000000100, 1500000000000000200, 88967913924505737000000000),
  (499999999999999890, 5500000000000000400, 499999999999999890, 88967913924505737000000000),
  (1500000000000000200, 499999999999999890, 4500000000000000100, 88967913924505737000000000),
  (1500000000000000200, 1500000000000000200, 3499999999999999800, 88967913924505737000000000),
  (1500000000000000200, 2500000000000000000, 2500000000000000000, 88967913924505737000000000),
  (1500000000000000200, 3499999999999999800, 1500000000000000200, 88967913924505737000000000),
  (1500000000000000200, 4500000000000000100, 499999999999999890, 88967913924505737000000000),
  (2500000000000000000, 499999999999999890, 3499999999999999800, 88967913924505737000000000),
  (2500000000000000000, 1500000000000000200, 2500000000000000000, 88967913924505737000000000),
  (2500000000000000000, 2500000000000000000, 1500000000000000200, 88967913924505737000000000),
  (2500000000000000000, 3499999999999999800, 499999999999999890, 88967913924505737000000000),
  (3499999999999999800, 499999999999999890, 2500000000000000000, 88967913924505737000000000),
  (3499999999999999800, 1500000000000000200, 1500000000000000200, 88967913924505737000000000),
  (3499999999999999800, 2500000000000000000, 499999999999999890, 88967913924505737000000000),
  (4500000000000000100, 499999999999999890, 1500000000000000200, 88967913924505737000000000),
  (4500000000000000100, 1500000000000000200, 499999999999999890, 88967913924505737000000000),
  (5500000000000000400, 499999999999999890, 499999999999999890, 88967913924505737000000000),
  (499999999999999890, 499999999999999890, 4500000000000000100, 88967913924505737000000000),
  (499999999999999890, 1500000000000000200, 3499999999999999800, 88967913924505737000000000),
  (499999999999999890, 2500000000000000000, 2500000000000000000, 88967913924505737000000000),
  (499999999999999890, 3499999999999999800, 1500000000000000200, 88967913924505737000000000),
  (499999999999999890, 4500000000000000100, 499999999999999890, 88967913924505737000000000),
  (1500000000000000200, 499999999999999890, 3499999999999999800, 88967913924505737000000000),
  (1500000000000000200, 1500000000000000200, 2500000000000000000, 88967913924505737000000000),
  (1500000000000000200, 2500000000000000000, 1500000000000000200, 88967913924505737000000000),
  (1500000000000000200, 3499999999999999800, 499999999999999890, 88967913924505737000000000),
  (2500000000000000000, 499999999999999890, 2500000000000000000, 88967913924505737000000000),
  (2500000000000000000, 1500000000000000200, 1500000000000000200, 88967913924505737000000000),
  (2500000000000000000, 2500000000000000000, 499999999999999890, 88967913924505737000000000),
  (3499999999999999800, 499999999999999890, 1500000000000000200, 88967913924505737000000000),
  (3499999999999999800, 1500000000000000200, 499999999999999890, 88967913924505737000000000)]

/-- `IntegrationTypeTetrahedron.cpp:2731-2780`, part of the block commented `order 21` -/
def tetrahedron14_13 : List (ℤ × ℤ × ℤ × ℤ) := [
  (4500000000000000100, 499999999999999890, 499999999999999890, 88967913924505737000000000),
  (499999999999999890, 499999999999999890, 3499999999999999800, 88967913924505737000000000),
  (499999999999999890, 1500000000000000200, 2500000000000000000, 88967913924505737000000000),
  (499999999999999890, 2500000000000000000, 1500000000000000200, 88967913924505737000000000),
  (499999999999999890, 3499999999999999800, 499999999999999890, 88967913924505737000000000),
  (1500000000000000200, 499999999999999890, 2500000000000000000, 88967913924505737000000000),
  (1500000000000000200, 1500000000000000200, 1500000000000000200, 88967913924505737000000000),
  (1500000000000000200, 2500000000000000000, 499999999999999890, 88967913924505737000000000),
  (2500000000000000000, 499999999999999890, 1500000000000000200, 88967913924505737000000000),
  (2500000000000000000, 1500000000000000200, 499999999999999890, 88967913924505737000000000),
  (3499999999999999800, 499999999999999890, 499999999999999890, 88967913924505737000000000),
  (499999999999999890, 499999999999999890, 2500000000000000000, 88967913924505737000000000),
  (499999999999999890, 1500000000000000200, 1500000000000000200, 88967913924505737000000000),
  (499999999999999890, 2500000000000000000, 499999999999999890, 88967913924505737000000000),
  (1500000000000000200, 499999999999999890, 1500000000000000200, 88967913924505737000000000),
  (1500000000000000200, 1500000000000000200, 499999999999999890, 88967913924505737000000000),
  (2500000000000000000, 499999999999999890, 499999999999999890, 88967913924505737000000000),
  (499999999999999890, 499999999999999890, 1500000000000000200, 88967913924505737000000000),
  (499999999999999890, 1500000000000000200, 499999999999999890, 88967913924505737000000000),
  (1500000000000000200, 499999999999999890, 499999999999999890, 88967913924505737000000000),
  (499999999999999890, 499999999999999890, 499999999999999890, 88967913924505737000000000),
  (555555555555555250, 555555555555555250, 8333333333333334800, (-71388380849564670000000000)),
  (555555555555555250, 1666666666666665200, 7222222222222219900, (-71388380849564670000000000)),
  (555555555555555250, 2777777777777780100, 6111111111111109400, (-71388380849564670000000000)),
  (555555555555555250, 3888888888888890100, 5000000000000000000, (-71388380849564670000000000)),
  (555555555555555250, 5000000000000000000, 3888888888888890100, (-71388380849564670000000000)),
  (555555555555555250, 6111111111111109400, 2777777777777780100, (-71388380849564670000000000)),
  (555555555555555250, 7222222222222219900, 1666666666666665200, (-71388380849564670000000000)),
  (555555555555555250, 8333333333333334800, 555555555555555250, (-71388380849564670000000000)),
  (1666666666666665200, 555555555555555250, 7222222222222219900, (-71388380849564670000000000)),
  (1666666666666665200, 1666666666666665200, 6111111111111109400, (-71388380849564670000000000)),
  (1666666666666665200, 2777777777777780100, 5000000000000000000, (-71388380849564670000000000)),
  (1666666666666665200, 3888888888888890100, 3888888888888890100, (-71388380849564670000000000)),
  (1666666666666665200, 5000000000000000000, 2777777777777780100, (-71388380849564670000000000)),
  (1666666666666665200, 6111111111111109400, 1666666666666665200, (-71388380849564670000000000)),
  (1666666666666665200, 7222222222222219900, 555555555555555250, (-71388380849564670000000000)),
  (2777777777777780100, 555555555555555250, 6111111111111109400, (-71388380849564670000000000)),
  (2777777777777780100, 1666666666666665200, 5000000000000000000, (-71388380849564670000000000)),
  (2777777777777780100, 2777777777777780100, 3888888888888890100, (-71388380849564670000000000)),
  (2777777777777780100, 3888888888888890100, 2777777777777780100, (-71388380849564670000000000)),
  (2777777777777780100, 5000000000000000000, 1666666666666665200, (-71388380849564670000000000)),
  (2777777777777780100, 6111111111111109400, 555555555555555250, (-71388380849564670000000000)),
  (3888888888888890100, 555555555555555250, 5000000000000000000, (-71388380849564670000000000)),
  (3888888888888890100, 1666666666666665200, 3888888888888890100, (-71388380849564670000000000)),
  (3888888888888890100, 2777777777777780100, 2777777777777780100, (-71388380849564670000000000)),
  (3888888888888890100, 3888888888888890100, 1666666666666665200, (-71388380849564670000000000)),
  (3888888888888890100, 5000000000000000000, 555555555555555250, (-71388380849564670000000000)),
  (5000000000000000000, 555555555555555250, 3888888888888890100, (-71388380849564670000000000)),
  (5000000000000000000, 1666666666666665200, 2777777777777780100, (-71388380849564670000000000)),
  (5000000000000000000, 2777777777777780100, 1666666666666665200, (-71388380849564670000000000))]

/-- `IntegrationTypeTetrahedron.cpp:2781-2830`, part of the block commented `order 21` -/
def tetrahedron14_14 : List (ℤ × ℤ × ℤ × ℤ) := [
  (5000000000000000000, 3888888888888890100, 555555555555555250, (-71388380849564670000000000)),
  (6111111111111109400, 555555555555555250, 2777777777777780100, (-71388380849564670000000000)),
  (6111111111111109400, 1666666666666665200, 1666666666666665200, (-71388380849564670000000000)),
  (6111111111111109400, 2777777777777780100, 555555555555555250, (-71388380849564670000000000)),
  (7222222222222219900, 555555555555555250, 1666666666666665200, (-71388380849564670000000000)),
  (7222222222222219900, 1666666666666665200, 555555555555555250, (-71388380849564670000000000)),
  (8333333333333334800, 555555555555555250, 555555555555555250, (-71388380849564670000000000)),
  (555555555555555250, 555555555555555250, 7222222222222219900, (-71388380849564670000000000)),
  (555555555555555250, 1666666666666665200, 6111111111111109400, (-71388380849564670000000000)),
  (555555555555555250, 2777777777777780100, 5000000000000000000, (-71388380849564670000000000)),
  (555555555555555250, 3888888888888890100, 3888888888888890100, (-71388380849564670000000000)),
  (555555555555555250, 5000000000000000000, 2777777777777780100, (-71388380849564670000000000)),
  (555555555555555250, 6111111111111109400, 1666666666666665200, (-71388380849564670000000000)),
  (555555555555555250, 7222222222222219900, 555555555555555250, (-71388380849564670000000000)),
  (1666666666666665200, 555555555555555250, 6111111111111109400, (-71388380849564670000000000)),
  (1666666666666665200, 1666666666666665200, 5000000000000000000, (-71388380849564670000000000)),
  (1666666666666665200, 2777777777777780100, 3888888888888890100, (-71388380849564670000000000)),
  (1666666666666665200, 3888888888888890100, 2777777777777780100, (-71388380849564670000000000)),
  (1666666666666665200, 5000000000000000000, 1666666666666665200, (-71388380849564670000000000)),
  (1666666666666665200, 6111111111111109400, 555555555555555250, (-71388380849564670000000000)),
  (2777777777777780100, 555555555555555250, 5000000000000000000, (-71388380849564670000000000)),
  (2777777777777780100, 1666666666666665200, 3888888888888890100, (-71388380849564670000000000)),
  (2777777777777780100, 2777777777777780100, 2777777777777780100, (-71388380849564670000000000)),
  (2777777777777780100, 3888888888888890100, 1666666666666665200, (-71388380849564670000000000)),
  (2777777777777780100, 5000000000000000000, 555555555555555250, (-71388380849564670000000000)),
  (3888888888888890100, 555555555555555250, 3888888888888890100, (-71388380849564670000000000)),
  (3888888888888890100, 1666666666666665200, 2777777777777780100, (-71388380849564670000000000)),
  (3888888888888890100, 2777777777777780100, 1666666666666665200, (-71388380849564670000000000)),
  (3888888888888890100, 3888888888888890100, 555555555555555250, (-71388380849564670000000000)),
  (5000000000000000000, 555555555555555250, 2777777777777780100, (-71388380849564670000000000)),
  (5000000000000000000, 1666666666666665200, 1666666666666665200, (-71388380849564670000000000)),
  (5000000000000000000, 2777777777777780100, 555555555555555250, (-71388380849564670000000000)),
  (6111111111111109400, 555555555555555250, 1666666666666665200, (-71388380849564670000000000)),
  (6111111111111109400, 1666666666666665200, 555555555555555250, (-71388380849564670000000000)),
  (7222222222222219900, 555555555555555250, 555555555555555250, (-71388380849564670000000000)),
  (555555555555555250, 555555555555555250, 6111111111111109400, (-71388380849564670000000000)),
  (555555555555555250, 1666666666666665200, 5000000000000000000, (-71388380849564670000000000)),
  (555555555555555250, 2777777777777780100, 3888888888888890100, (-71388380849564670000000000)),
  (555555555555555250, 3888888888888890100, 2777777777777780100, (-71388380849564670000000000)),
  (555555555555555250, 5000000000000000000, 1666666666666665200, (-71388380849564670000000000)),
  (555555555555555250, 6111111111111109400, 555555555555555250, (-71388380849564670000000000)),
  (1666666666666665200, 555555555555555250, 5000000000000000000, (-71388380849564670000000000)),
  (1666666666666665200, 1666666666666665200, 3888888888888890100, (-71388380849564670000000000)),
  (1666666666666665200, 2777777777777780100, 2777777777777780100, (-71388380849564670000000000)),
  (1666666666666665200, 3888888888888890100, 1666666666666665200, (-71388380849564670000000000)),
  (1666666666666665200, 5000000000000000000, 555555555555555250, (-71388380849564670000000000)),
  (2777777777777780100, 555555555555555250, 3888888888888890100, (-71388380849564670000000000)),
  (2777777777777780100, 1666666666666665200, 2777777777777780100, (-71388380849564670000000000)),
  (2777777777777780100, 2777777777777780100, 1666666666666665200, (-71388380849564670000000000)),
  (2777777777777780100, 3888888888888890100, 555555555555555250, (-71388380849564670000000000))]

/-- `IntegrationTypeTetrahedron.cpp:2831-2880`, part of the block commented `order 21` -/
def tetrahedron14_15 : List (ℤ × ℤ × ℤ × ℤ) := [
  (3888888888888890100, 555555555555555250, 2777777777777780100, (-71388380849564670000000000)),
  (3888888888888890100, 1666666666666665200, 1666666666666665200, (-71388380849564670000000000)),
  (3888888888888890100, 2777777777777780100, 555555555555555250, (-71388380849564670000000000)),
  (5000000000000000000, 555555555555555250, 1666666666666665200, (-71388380849564670000000000)),
  (5000000000000000000, 1666666666666665200, 555555555555555250, (-71388380849564670000000000)),
  (6111111111111109400, 555555555555555250, 555555555555555250, (-71388380849564670000000000)),
  (555555555555555250, 555555555555555250, 5000000000000000000, (-71388380849564670000000000)),
  (555555555555555250, 1666666666666665200, 3888888888888890100, (-71388380849564670000000000)),
  (555555555555555250, 2777777777777780100, 2777777777777780100, (-71388380849564670000000000)),
  (555555555555555250, 3888888888888890100, 1666666666666665200, (-71388380849564670000000000)),
  (555555555555555250, 5000000000000000000, 555555555555555250, (-71388380849564670000000000)),
  (1666666666666665200, 555555555555555250, 3888888888888890100, (-71388380849564670000000000)),
  (1666666666666665200, 1666666666666665200, 2777777777777780100, (-71388380849564670000000000)),
  (1666666666666665200, 2777777777777780100, 1666666666666665200, (-71388380849564670000000000)),
  (1666666666666665200, 3888888888888890100, 555555555555555250, (-71388380849564670000000000)),
  (2777777777777780100, 555555555555555250, 2777777777777780100, (-71388380849564670000000000)),
  (2777777777777780100, 1666666666666665200, 1666666666666665200, (-71388380849564670000000000)),
  (2777777777777780100, 2777777777777780100, 555555555555555250, (-71388380849564670000000000)),
  (3888888888888890100, 555555555555555250, 1666666666666665200, (-71388380849564670000000000)),
  (3888888888888890100, 1666666666666665200, 555555555555555250, (-71388380849564670000000000)),
  (5000000000000000000, 555555555555555250, 555555555555555250, (-71388380849564670000000000)),
  (555555555555555250, 555555555555555250, 3888888888888890100, (-71388380849564670000000000)),
  (555555555555555250, 1666666666666665200, 2777777777777780100, (-71388380849564670000000000)),
  (555555555555555250, 2777777777777780100, 1666666666666665200, (-71388380849564670000000000)),
  (555555555555555250, 3888888888888890100, 555555555555555250, (-71388380849564670000000000)),
  (1666666666666665200, 555555555555555250, 2777777777777780100, (-71388380849564670000000000)),
  (1666666666666665200, 1666666666666665200, 1666666666666665200, (-71388380849564670000000000)),
  (1666666666666665200, 2777777777777780100, 555555555555555250, (-71388380849564670000000000)),
  (2777777777777780100, 555555555555555250, 1666666666666665200, (-71388380849564670000000000)),
  (2777777777777780100, 1666666666666665200, 555555555555555250, (-71388380849564670000000000)),
  (3888888888888890100, 555555555555555250, 555555555555555250, (-71388380849564670000000000)),
  (555555555555555250, 555555555555555250, 2777777777777780100, (-71388380849564670000000000)),
  (555555555555555250, 1666666666666665200, 1666666666666665200, (-71388380849564670000000000)),
  (555555555555555250, 2777777777777780100, 555555555555555250, (-71388380849564670000000000)),
  (1666666666666665200, 555555555555555250, 1666666666666665200, (-71388380849564670000000000)),
  (1666666666666665200, 1666666666666665200, 555555555555555250, (-71388380849564670000000000)),
  (2777777777777780100, 555555555555555250, 555555555555555250, (-71388380849564670000000000)),
  (555555555555555250, 555555555555555250, 1666666666666665200, (-71388380849564670000000000)),
  (555555555555555250, 1666666666666665200, 555555555555555250, (-71388380849564670000000000)),
  (1666666666666665200, 555555555555555250, 555555555555555250, (-71388380849564670000000000)),
  (555555555555555250, 555555555555555250, 555555555555555250, (-71388380849564670000000000)),
  (625000000000000000, 625000000000000000, 8125000000000000000, 31592490524540673000000000),
  (625000000000000000, 1875000000000000000, 6875000000000000000, 31592490524540673000000000),
  (625000000000000000, 3125000000000000000, 5625000000000000000, 31592490524540673000000000),
  (625000000000000000, 4375000000000000000, 4375000000000000000, 31592490524540673000000000),
  (625000000000000000, 5625000000000000000, 3125000000000000000, 31592490524540673000000000),
  (625000000000000000, 6875000000000000000, 1875000000000000000, 31592490524540673000000000),
  (625000000000000000, 8125000000000000000, 625000000000000000, 31592490524540673000000000),
  (1875000000000000000, 625000000000000000, 6875000000000000000, 31592490524540673000000000),
  (1875000000000000000, 1875000000000000000, 5625000000000000000, 31592490524540673000000000)]

/-- `IntegrationTypeTetrahedron.cpp:2881-2930`, part of the block commented `order 21` -/
def tetrahedron14_16 : List (ℤ × ℤ × ℤ × ℤ) := [
  (1875000000000000000, 3125000000000000000, 4375000000000000000, 31592490524540673000000000),
  (1875000000000000000, 4375000000000000000, 3125000000000000000, 31592490524540673000000000),
  (1875000000000000000, 5625000000000000000, 1875000000000000000, 31592490524540673000000000),
  (1875000000000000000, 6875000000000000000, 625000000000000000, 31592490524540673000000000),
  (3125000000000000000, 625000000000000000, 5625000000000000000, 31592490524540673000000000),
  (3125000000000000000, 1875000000000000000, 4375000000000000000, 31592490524540673000000000),
  (3125000000000000000, 3125000000000000000, 3125000000000000000, 31592490524540673000000000),
  (3125000000000000000, 4375000000000000000, 1875000000000000000, 31592490524540673000000000),
  (3125000000000000000, 5625000000000000000, 625000000000000000, 31592490524540673000000000),
  (4375000000000000000, 625000000000000000, 4375000000000000000, 31592490524540673000000000),
  (4375000000000000000, 1875000000000000000, 3125000000000000000, 31592490524540673000000000),
  (4375000000000000000, 3125000000000000000, 1875000000000000000, 31592490524540673000000000),
  (4375000000000000000, 4375000000000000000, 625000000000000000, 31592490524540673000000000),
  (5625000000000000000, 625000000000000000, 3125000000000000000, 31592490524540673000000000),
  (5625000000000000000, 1875000000000000000, 1875000000000000000, 31592490524540673000000000),
  (5625000000000000000, 3125000000000000000, 625000000000000000, 31592490524540673000000000),
  (6875000000000000000, 625000000000000000, 1875000000000000000, 31592490524540673000000000),
  (6875000000000000000, 1875000000000000000, 625000000000000000, 31592490524540673000000000),
  (8125000000000000000, 625000000000000000, 625000000000000000, 31592490524540673000000000),
  (625000000000000000, 625000000000000000, 6875000000000000000, 31592490524540673000000000),
  (625000000000000000, 1875000000000000000, 5625000000000000000, 31592490524540673000000000),
  (625000000000000000, 3125000000000000000, 4375000000000000000, 31592490524540673000000000),
  (625000000000000000, 4375000000000000000, 3125000000000000000, 31592490524540673000000000),
  (625000000000000000, 5625000000000000000, 1875000000000000000, 31592490524540673000000000),
  (625000000000000000, 6875000000000000000, 625000000000000000, 31592490524540673000000000),
  (1875000000000000000, 625000000000000000, 5625000000000000000, 31592490524540673000000000),
  (1875000000000000000, 1875000000000000000, 4375000000000000000, 31592490524540673000000000),
  (1875000000000000000, 3125000000000000000, 3125000000000000000, 31592490524540673000000000),
  (1875000000000000000, 4375000000000000000, 1875000000000000000, 31592490524540673000000000),
  (1875000000000000000, 5625000000000000000, 625000000000000000, 31592490524540673000000000),
  (3125000000000000000, 625000000000000000, 4375000000000000000, 31592490524540673000000000),
  (3125000000000000000, 1875000000000000000, 3125000000000000000, 31592490524540673000000000),
  (3125000000000000000, 3125000000000000000, 1875000000000000000, 31592490524540673000000000),
  (3125000000000000000, 4375000000000000000, 625000000000000000, 31592490524540673000000000),
  (4375000000000000000, 625000000000000000, 3125000000000000000, 31592490524540673000000000),
  (4375000000000000000, 1875000000000000000, 1875000000000000000, 31592490524540673000000000),
  (4375000000000000000, 3125000000000000000, 625000000000000000, 31592490524540673000000000),
  (5625000000000000000, 625000000000000000, 1875000000000000000, 31592490524540673000000000),
  (5625000000000000000, 1875000000000000000, 625000000000000000, 31592490524540673000000000),
  (6875000000000000000, 625000000000000000, 625000000000000000, 31592490524540673000000000),
  (625000000000000000, 625000000000000000, 5625000000000000000, 31592490524540673000000000),
  (625000000000000000, 1875000000000000000, 4375000000000000000, 31592490524540673000000000),
  (625000000000000000, 3125000000000000000, 3125000000000000000, 31592490524540673000000000),
  (625000000000000000, 4375000000000000000, 1875000000000000000, 31592490524540673000000000),
  (625000000000000000, 5625000000000000000, 625000000000000000, 31592490524540673000000000),
  (1875000000000000000, 625000000000000000, 4375000000000000000, 31592490524540673000000000),
  (1875000000000000000, 1875000000000000000, 3125000000000000000, 31592490524540673000000000),
  (1875000000000000000, 3125000000000000000, 1875000000000000000, 31592490524540673000000000),
  (1875000000000000000, 4375000000000000000, 625000000000000000, 31592490524540673000000000),
  (3125000000000000000, 625000000000000000, 3125000000000000000, 31592490524540673000000000)]

/-- `IntegrationTypeTetrahedron.cpp:2931-2980`, part of the block commented `order 21` -/
def tetrahedron14_17 : List (ℤ × ℤ × ℤ × ℤ) := [
  (3125000000000000000, 1875000000000000000, 1875000000000000000, 31592490524540673000000000),
  (3125000000000000000, 3125000000000000000, 625000000000000000, 31592490524540673000000000),
  (4375000000000000000, 625000000000000000, 1875000000000000000, 31592490524540673000000000),
  (4375000000000000000, 1875000000000000000, 625000000000000000, 31592490524540673000000000),
  (5625000000000000000, 625000000000000000, 625000000000000000, 31592490524540673000000000),
  (625000000000000000, 625000000000000000, 4375000000000000000, 31592490524540673000000000),
  (625000000000000000, 1875000000000000000, 3125000000000000000, 31592490524540673000000000),
  (625000000000000000, 3125000000000000000, 1875000000000000000, 31592490524540673000000000),
  (625000000000000000, 4375000000000000000, 625000000000000000, 31592490524540673000000000),
  (1875000000000000000, 625000000000000000, 3125000000000000000, 31592490524540673000000000),
  (1875000000000000000, 1875000000000000000, 1875000000000000000, 31592490524540673000000000),
  (1875000000000000000, 3125000000000000000, 625000000000000000, 31592490524540673000000000),
  (3125000000000000000, 625000000000000000, 1875000000000000000, 31592490524540673000000000),
  (3125000000000000000, 1875000000000000000, 625000000000000000, 31592490524540673000000000),
  (4375000000000000000, 625000000000000000, 625000000000000000, 31592490524540673000000000),
  (625000000000000000, 625000000000000000, 3125000000000000000, 31592490524540673000000000),
  (625000000000000000, 1875000000000000000, 1875000000000000000, 31592490524540673000000000),
  (625000000000000000, 3125000000000000000, 625000000000000000, 31592490524540673000000000),
  (1875000000000000000, 625000000000000000, 1875000000000000000, 31592490524540673000000000),
  (1875000000000000000, 1875000000000000000, 625000000000000000, 31592490524540673000000000),
  (3125000000000000000, 625000000000000000, 625000000000000000, 31592490524540673000000000),
  (625000000000000000, 625000000000000000, 1875000000000000000, 31592490524540673000000000),
  (625000000000000000, 1875000000000000000, 625000000000000000, 31592490524540673000000000),
  (1875000000000000000, 625000000000000000, 625000000000000000, 31592490524540673000000000),
  (625000000000000000, 625000000000000000, 625000000000000000, 31592490524540673000000000),
  (714285714285715080, 714285714285715080, 7857142857142854800, (-7652669695232150500000000)),
  (714285714285715080, 2142857142857145200, 6428571428571430200, (-7652669695232150500000000)),
  (714285714285715080, 3571428571428569800, 5000000000000000000, (-7652669695232150500000000)),
  (714285714285715080, 5000000000000000000, 3571428571428569800, (-7652669695232150500000000)),
  (714285714285715080, 6428571428571430200, 2142857142857145200, (-7652669695232150500000000)),
  (714285714285715080, 7857142857142854800, 714285714285715080, (-7652669695232150500000000)),
  (2142857142857145200, 714285714285715080, 6428571428571430200, (-7652669695232150500000000)),
  (2142857142857145200, 2142857142857145200, 5000000000000000000, (-7652669695232150500000000)),
  (2142857142857145200, 3571428571428569800, 3571428571428569800, (-7652669695232150500000000)),
  (2142857142857145200, 5000000000000000000, 2142857142857145200, (-7652669695232150500000000)),
  (2142857142857145200, 6428571428571430200, 714285714285715080, (-7652669695232150500000000)),
  (3571428571428569800, 714285714285715080, 5000000000000000000, (-7652669695232150500000000)),
  (3571428571428569800, 2142857142857145200, 3571428571428569800, (-7652669695232150500000000)),
  (3571428571428569800, 3571428571428569800, 2142857142857145200, (-7652669695232150500000000)),
  (3571428571428569800, 5000000000000000000, 714285714285715080, (-7652669695232150500000000)),
  (5000000000000000000, 714285714285715080, 3571428571428569800, (-7652669695232150500000000)),
  (5000000000000000000, 2142857142857145200, 2142857142857145200, (-7652669695232150500000000)),
  (5000000000000000000, 3571428571428569800, 714285714285715080, (-7652669695232150500000000)),
  (6428571428571430200, 714285714285715080, 2142857142857145200, (-7652669695232150500000000)),
  (6428571428571430200, 2142857142857145200, 714285714285715080, (-7652669695232150500000000)),
  (7857142857142854800, 714285714285715080, 714285714285715080, (-7652669695232150500000000)),
  (714285714285715080, 714285714285715080, 6428571428571430200, (-7652669695232150500000000)),
  (714285714285715080, 2142857142857145200, 5000000000000000000, (-7652669695232150500000000)),
  (714285714285715080, 3571428571428569800, 3571428571428569800, (-7652669695232150500000000)),
  (714285714285715080, 5000000000000000000, 2142857142857145200, (-7652669695232150500000000))]

/-- `IntegrationTypeTetrahedron.cpp:2981-3030`, part of the block commented `order 21` -/
def tetrahedron14_18 : List (ℤ × ℤ × ℤ × ℤ) := [
  (714285714285715080, 6428571428571430200, 714285714285715080, (-7652669695232150500000000)),
  (2142857142857145200, 714285714285715080, 5000000000000000000, (-7652669695232150500000000)),
  (2142857142857145200, 2142857142857145200, 3571428571428569800, (-7652669695232150500000000)),
  (2142857142857145200, 3571428571428569800, 2142857142857145200, (-7652669695232150500000000)),
  (2142857142857145200, 5000000000000000000, 714285714285715080, (-7652669695232150500000000)),
  (3571428571428569800, 714285714285715080, 3571428571428569800, (-7652669695232150500000000)),
  (3571428571428569800, 2142857142857145200, 2142857142857145200, (-7652669695232150500000000)),
  (3571428571428569800, 3571428571428569800, 714285714285715080, (-7652669695232150500000000)),
  (5000000000000000000, 714285714285715080, 2142857142857145200, (-7652669695232150500000000)),
  (5000000000000000000, 2142857142857145200, 714285714285715080, (-7652669695232150500000000)),
  (6428571428571430200, 714285714285715080, 714285714285715080, (-7652669695232150500000000)),
  (714285714285715080, 714285714285715080, 5000000000000000000, (-7652669695232150500000000)),
  (714285714285715080, 2142857142857145200, 3571428571428569800, (-7652669695232150500000000)),
  (714285714285715080, 3571428571428569800, 2142857142857145200, (-7652669695232150500000000)),
  (714285714285715080, 5000000000000000000, 714285714285715080, (-7652669695232150500000000)),
  (2142857142857145200, 714285714285715080, 3571428571428569800, (-7652669695232150500000000)),
  (2142857142857145200, 2142857142857145200, 2142857142857145200, (-7652669695232150500000000)),
  (2142857142857145200, 3571428571428569800, 714285714285715080, (-7652669695232150500000000)),
  (3571428571428569800, 714285714285715080, 2142857142857145200, (-7652669695232150500000000)),
  (3571428571428569800, 2142857142857145200, 714285714285715080, (-7652669695232150500000000)),
  (5000000000000000000, 714285714285715080, 714285714285715080, (-7652669695232150500000000)),
  (714285714285715080, 714285714285715080, 3571428571428569800, (-7652669695232150500000000)),
  (714285714285715080, 2142857142857145200, 2142857142857145200, (-7652669695232150500000000)),
  (714285714285715080, 3571428571428569800, 714285714285715080, (-7652669695232150500000000)),
  (2142857142857145200, 714285714285715080, 2142857142857145200, (-7652669695232150500000000)),
  (2142857142857145200, 2142857142857145200, 714285714285715080, (-7652669695232150500000000)),
  (3571428571428569800, 714285714285715080, 714285714285715080, (-7652669695232150500000000)),
  (714285714285715080, 714285714285715080, 2142857142857145200, (-7652669695232150500000000)),
  (714285714285715080, 2142857142857145200, 714285714285715080, (-7652669695232150500000000)),
  (2142857142857145200, 714285714285715080, 714285714285715080, (-7652669695232150500000000)),
  (714285714285715080, 714285714285715080, 714285714285715080, (-7652669695232150500000000)),
  (833333333333334810, 833333333333334810, 7500000000000000000, 951771589754787580000000),
  (833333333333334810, 2500000000000000000, 5833333333333334800, 951771589754787580000000),
  (833333333333334810, 4166666666666665200, 4166666666666665200, 951771589754787580000000),
  (833333333333334810, 5833333333333334800, 2500000000000000000, 951771589754787580000000),
  (833333333333334810, 7500000000000000000, 833333333333334810, 951771589754787580000000),
  (2500000000000000000, 833333333333334810, 5833333333333334800, 951771589754787580000000),
  (2500000000000000000, 2500000000000000000, 4166666666666665200, 951771589754787580000000),
  (2500000000000000000, 4166666666666665200, 2500000000000000000, 951771589754787580000000),
  (2500000000000000000, 5833333333333334800, 833333333333334810, 951771589754787580000000),
  (4166666666666665200, 833333333333334810, 4166666666666665200, 951771589754787580000000),
  (4166666666666665200, 2500000000000000000, 2500000000000000000, 951771589754787580000000),
  (4166666666666665200, 4166666666666665200, 833333333333334810, 951771589754787580000000),
  (5833333333333334800, 833333333333334810, 2500000000000000000, 951771589754787580000000),
  (5833333333333334800, 2500000000000000000, 833333333333334810, 951771589754787580000000),
  (7500000000000000000, 833333333333334810, 833333333333334810, 951771589754787580000000),
  (833333333333334810, 833333333333334810, 5833333333333334800, 951771589754787580000000),
  (833333333333334810, 2500000000000000000, 4166666666666665200, 951771589754787580000000),
  (833333333333334810, 4166666666666665200, 2500000000000000000, 951771589754787580000000),
  (833333333333334810, 5833333333333334800, 833333333333334810, 951771589754787580000000)]

/-- `IntegrationTypeTetrahedron.cpp:3031-3080`, part of the block commented `order 21` -/
def tetrahedron14_19 : List (ℤ × ℤ × ℤ × ℤ) := [
  (2500000000000000000, 833333333333334810, 4166666666666665200, 951771589754787580000000),
  (2500000000000000000, 2500000000000000000, 2500000000000000000, 951771589754787580000000),
  (2500000000000000000, 4166666666666665200, 833333333333334810, 951771589754787580000000),
  (4166666666666665200, 833333333333334810, 2500000000000000000, 951771589754787580000000),
  (4166666666666665200, 2500000000000000000, 833333333333334810, 951771589754787580000000),
  (5833333333333334800, 833333333333334810, 833333333333334810, 951771589754787580000000),
  (833333333333334810, 833333333333334810, 4166666666666665200, 951771589754787580000000),
  (833333333333334810, 2500000000000000000, 2500000000000000000, 951771589754787580000000),
  (833333333333334810, 4166666666666665200, 833333333333334810, 951771589754787580000000),
  (2500000000000000000, 833333333333334810, 2500000000000000000, 951771589754787580000000),
  (2500000000000000000, 2500000000000000000, 833333333333334810, 951771589754787580000000),
  (4166666666666665200, 833333333333334810, 833333333333334810, 951771589754787580000000),
  (833333333333334810, 833333333333334810, 2500000000000000000, 951771589754787580000000),
  (833333333333334810, 2500000000000000000, 833333333333334810, 951771589754787580000000),
  (2500000000000000000, 833333333333334810, 833333333333334810, 951771589754787580000000),
  (833333333333334810, 833333333333334810, 833333333333334810, 951771589754787580000000),
  (999999999999999780, 999999999999999780, 6999999999999999600, (-53198701887762498000000)),
  (999999999999999780, 2999999999999999900, 5000000000000000000, (-53198701887762498000000)),
  (999999999999999780, 5000000000000000000, 2999999999999999900, (-53198701887762498000000)),
  (999999999999999780, 6999999999999999600, 999999999999999780, (-53198701887762498000000)),
  (2999999999999999900, 999999999999999780, 5000000000000000000, (-53198701887762498000000)),
  (2999999999999999900, 2999999999999999900, 2999999999999999900, (-53198701887762498000000)),
  (2999999999999999900, 5000000000000000000, 999999999999999780, (-53198701887762498000000)),
  (5000000000000000000, 999999999999999780, 2999999999999999900, (-53198701887762498000000)),
  (5000000000000000000, 2999999999999999900, 999999999999999780, (-53198701887762498000000)),
  (6999999999999999600, 999999999999999780, 999999999999999780, (-53198701887762498000000)),
  (999999999999999780, 999999999999999780, 5000000000000000000, (-53198701887762498000000)),
  (999999999999999780, 2999999999999999900, 2999999999999999900, (-53198701887762498000000)),
  (999999999999999780, 5000000000000000000, 999999999999999780, (-53198701887762498000000)),
  (2999999999999999900, 999999999999999780, 2999999999999999900, (-53198701887762498000000)),
  (2999999999999999900, 2999999999999999900, 999999999999999780, (-53198701887762498000000)),
  (5000000000000000000, 999999999999999780, 999999999999999780, (-53198701887762498000000)),
  (999999999999999780, 999999999999999780, 2999999999999999900, (-53198701887762498000000)),
  (999999999999999780, 2999999999999999900, 999999999999999780, (-53198701887762498000000)),
  (2999999999999999900, 999999999999999780, 999999999999999780, (-53198701887762498000000)),
  (999999999999999780, 999999999999999780, 999999999999999780, (-53198701887762498000000)),
  (1250000000000000000, 1250000000000000000, 6250000000000000000, 1042676766200000000000),
  (1250000000000000000, 3750000000000000000, 3750000000000000000, 1042676766200000000000),
  (1250000000000000000, 6250000000000000000, 1250000000000000000, 1042676766200000000000),
  (3750000000000000000, 1250000000000000000, 3750000000000000000, 1042676766200000000000),
  (3750000000000000000, 3750000000000000000, 1250000000000000000, 1042676766200000000000),
  (6250000000000000000, 1250000000000000000, 1250000000000000000, 1042676766200000000000),
  (1250000000000000000, 1250000000000000000, 3750000000000000000, 1042676766200000000000),
  (1250000000000000000, 3750000000000000000, 1250000000000000000, 1042676766200000000000),
  (3750000000000000000, 1250000000000000000, 1250000000000000000, 1042676766200000000000),
  (1250000000000000000, 1250000000000000000, 1250000000000000000, 1042676766200000000000),
  (1666666666666665200, 1666666666666665200, 5000000000000000000, (-4408732012500000000)),
  (1666666666666665200, 5000000000000000000, 1666666666666665200, (-4408732012500000000)),
  (5000000000000000000, 1666666666666665200, 1666666666666665200, (-4408732012500000000)),
  (1666666666666665200, 1666666666666665200, 1666666666666665200, (-4408732012500000000))]

/-- `IntegrationTypeTetrahedron.cpp:3081-3081`, part of the block commented `order 21` -/
def tetrahedron14_20 : List (ℤ × ℤ × ℤ × ℤ) := [
  (2500000000000000000, 2500000000000000000, 2500000000000000000, 1325837500000000)]

/-- `IntegrationTypeTetrahedron.cpp:2080-3081`, commented `order 21` -/
def tetrahedron14 : List (ℤ × ℤ × ℤ × ℤ) :=
  tetrahedron14_0 ++ (tetrahedron14_1 ++ (tetrahedron14_2 ++ (tetrahedron14_3 ++ (tetrahedron14_4 ++ (tetrahedron14_5 ++ (tetrahedron14_6 ++ (tetrahedron14_7 ++ (tetrahedron14_8 ++ (tetrahedron14_9 ++ (tetrahedron14_10 ++ (tetrahedron14_11 ++ (tetrahedron14_12 ++ (tetrahedron14_13 ++ (tetrahedron14_14 ++ (tetrahedron14_15 ++ (tetrahedron14_16 ++ (tetrahedron14_17 ++ (tetrahedron14_18 ++ (tetrahedron14_19 ++ (tetrahedron14_20))))))))))))))))))))

/-- `quadratureData` -/
def tetrahedronTable : List (List (ℤ × ℤ × ℤ × ℤ)) := [tetrahedron0, tetrahedron1, tetrahedron2, tetrahedron3, tetrahedron4, tetrahedron5, tetrahedron6, tetrahedron7, tetrahedron8, tetrahedron9, tetrahedron10, tetrahedron11, tetrahedron12, tetrahedron13, tetrahedron14]

end NuTo.SimplexRule
