import Verif.Model.DataTree

/-! Generated by `tools/gen_params.py`. -/

namespace WG

set_option maxRecDepth 100000

/-- For every row of the routing order: the fraction of the continent, of global wetlands, local wetlands and local lakes (10 digits
each, bits of the binary32 number, in percent) and the number of the record in `rareData` (4 digits); 16 rows to a leaf, the first row in the leading digits. -/
def fractionData : DTree :=
 (.node 4096 (.node 2048 (.node 1024 (.node 512 (.node 256 (.node 128 (.node 64 (.node 32 (.node 16 (.node 8 (.node 4 (.node 2 (.node 1 (.leaf 10994319360000000000000000000000000000000000109681049600000000000000000000000000000000001105199104000000000000000000000000000000000011051991040000000000000000000000000000000000110362624000000000000000000000000000000000001105199104000000000000000000000000000000000010994319360000000000000000000000000000000000109681049600000000000000000000000000000000001120403456000000000000000000000000000000000011204034560000000000000000000000000000000000112040345600000000000000000000000000000000001120403456000000000000000000001067603421000011204034560000000000000000000000000000000000112040345600000000000000000000000000000000001120403456000000000000000000000000000000000011204034560000000000000000000000000000000000)
 (.leaf 11204034560000000000000000000000000000000000112040345600000000000000000000000000000000001120403456000000000000000000000000000000000010994319360000000000000000000000000000000000108632473600000000000000000000000000000000001102053376000000000000000000000000000000000011036262400000000000000000000000000000000000109681049600000000000000000000000000000000001079836567000000000000000000000000000000000010973222010000000000000000000000000000000000109051904000000000000000000000000000000000001090519040000000000000000000000000000000000010994319360000000000000000000000000000000000110362624000000000000000000000000000000000001107558400000000000000000000000000000000000011112284160000000000000000000000000000000000))
 (.node 1 (.leaf 11120148480000000000000000000000000000000000110677196800000000000000000000000000000000001105199104000000000000000000000000000000000010936647680000000000000000000010547417100000109943193600000000000000000000000000000000001099431936000000000000000000000000000000000011075584000000000000000000000000000000000000110755840000000000000000000000000000000000001109917696000000000000000000000000000000000011120148480000000000000000000000000000000000111044198400000000000000000000000000000000001107558400000000000000000000000000000000000011020533760000000000000000000000000000000000109943193600000000000000000000106987227800001077936128000000000000000000001073998723000011204034560000000000000000000010696834490000)
 (.leaf 11204034560000000000000000000000000000000000111800236100000000000000000000000000000000001117157589000000000000000000000000000000000011157834960000000000000000000000000000000000111379223700000000000000000000000000000000001108153414000000000000000000000000000000000011073591710000000000000000000000000000000000108287701800000000000000000000000000000000001099144469000000000000000000000000000000000010905190400000000000000000000000000000000000109943193600000000000000000000000000000000001090519040000000000000000000001053016428000011067719680000000000000000000010592139210000110362624000000000000000000000102327594700001112014848000000000000000000001066453947000011148984320000000000000000000009800539620000)))
 (.node 2 (.node 1 (.leaf 11148984320000000000000000000010490499680000111280128000000000000000000000105718156300001116340224000000000000000000000000000000000011156848640000000000000000000000000000000000112001024000000000000000000000104232437700001120403456000000000000000000001057696717000011204034560000000000000000000000000000000000112040345600000000000000000000000000000000001118175232000000000000000000000000000000000011185684480000000000000000000000000000000000111935488000000000000000000000000000000000001118175232000000000000000000001050763976000011181752320000000000000000000000000000000000111817523200000000000000000000000000000000001119354880000000000000000000000000000000000011171266560000000000000000000000000000000000)
 (.leaf 11167334400000000000000000000000000000000000111607808000000000000000000000000000000000001118175232000000000000000000001050829354000011156848640000000000000000000010422378530000111607808000000000000000000000000000000000001111228416000000000000000000000000000000000010968104960000000000000000000010567974550000112040345600000000000000000000000000000000001078676339000000000000000000000000000000000010089817700000000000000000000000000000000000108854589300000000000000000000000000000000001101925764000000000000000000000000000000000010968104960000000000000000000000000000000000110048051200000000000000000000000000000000001100480512000000000000000000001061412559000011083448320000000000000000000010661086960000))
 (.node 1 (.leaf 11156848640000000000000000000000000000000000111489843200000000000000000000000000000000001113587712000000000000000000001060502254000011163402240000000000000000000000000000000000111673344000000000000000000000000000000000001114112000000000000000000000000000000000000011091312640000000000000000000000000000000000112040345600000000000000000000000000000000001120403456000000000000000000000000000000000011204034560000000000000000000000000000000000112040345600000000000000000000104651106300001120403456000000000000000000000000000000000011204034560000000000000000000000000000000000112040345600000000000000000000000000000000001120403456000000000000000000000000000000000011204034560000000000000000000000000000000000)
 (.leaf 11204034560000000000000000000000000000000000112040345600000000000000000000107766542600001120403456000000000000000000000000000000000011204034560000000000000000000000000000000000112040345600000000000000000000000000000000001120403456000000000000000000001068749699000011204034560000000000000000000010608668790000112040345600000000000000000000000000000000001120403456000000000000000000000000000000000011204034560000000000000000000000000000000000112040345600000000000000000000000000000000001120403456000000000000000000001048709013000011204034560000000000000000000010404757200000112040345600000000000000000000106246262400001113933166000000000000000000001048626632000011123452280000000000000000000000000000000000))))
 (.node 4 (.node 2 (.node 1 (.leaf 11073816630000000000000000000000000000000000108347053300000000000000000000000000000000001107558400000000000000000000000000000000000011075584000000000000000000000010499623380000110048051200000000000000000000000000000000001107558400000000000000000000000000000000000011185684480000000000000000000010380554540000111961702400000000000000000000000000000000001116733440000000000000000000001060622515000011156848640000000000000000000000000000000000112001024000000000000000000000000000000000001120403456000000000000000000000000000000000011204034560000000000000000000000000000000000112040345600000000000000000000000000000000001120403456000000000000000000000000000000000011204034560000000000000000000000000000000000)
 (.leaf 11204034560000000000000000000000000000000000112040345600000000000000000000000000000000001120403456000000000000000000000000000000000011204034560000000000000000000010566065930000112040345600000000000000000000000000000000001120403456000000000000000000001060812451000011204034560000000000000000000010579894110000112040345600000000000000000000104313040100001120403456000000000000000000000000000000000011204034560000000000000000000000000000000000112040345600000000000000000000104099629300001119354880000000000000000000001046377733000011163402240000000000000000000010499301880000111044198400000000000000000000000000000000001099431936000000000000000000000000000000000011020533760000000000000000000000000000000000))
 (.node 1 (.leaf 11075584000000000000000000000010699295670000110755840000000000000000000000105065428000001107558400000000000000000000001041431613000011091312640000000000000000000000000000000000110913126400000000000000000000000000000000001112014848000000000000000000000000000000000011160780800000000000000000000000000000000000111607808000000000000000000000000000000000001112014848000000000000000000000000000000000011036262400000000000000000000000000000000000111201484800000000000000000000000000000000001102053376000000000000000000000000000000000010779361280000000000000000000000000000000000108881736900000000000000000000000000000000001112014848000000000000000000001056434023000011204034560000000000000000000010583057960000)
 (.leaf 11200102400000000000000000000010515692680000111961702400000000000000000000000000000000001117126656000000000000000000000000000000000011148984320000000000000000000010751502260000110913126400000000000000000000000000000000001086324736000000000000000000000000000000000010905190400000000000000000000010553403470000110913126400000000000000000000000000000000001111228416000000000000000000000000000000000011075584000000000000000000000000000000000000109943193600000000000000000000000000000000001077936128000000000000000000001054822454000011187118140000000000000000000010802759910000111963821900000000000000000000104067304800001120403456000000000000000000001075705258000011204034560000000000000000000000000000000000)))
 (.node 2 (.node 1 (.leaf 11204034560000000000000000000000000000000000112040345600000000000000000000000000000000001120403456000000000000000000000000000000000011204034560000000000000000000000000000000000112040345600000000000000000000000000000000001120403456000000000000000000000000000000000011096292330000000000000000000000000000000000110469054500000000000000000000104410985100001096792041000000000000000000000000000000000010920098000000000000000000000000000000000000100898177000000000000000000000000000000000001008981770000000000000000000000000000000000010701402590000000000000000000000000000000000110037916700000000000000000000000000000000001093664768000000000000000000000000000000000011099176960000000000000000000010492269350000)
 (.leaf 11141120000000000000000000000010318042300000111751987200000000000000000000000000000000001119617024000000000000000000000000000000000011189616640000000000000000000010410322560000112040345600000000000000000000000000000000001120010240000000000000000000001020366660000011196170240000000000000000000000000000000000112040345600000000000000000000105598678700001120403456000000000000000000001067377943000011204034560000000000000000000010584766310000112040345600000000000000000000000000000000001120403456000000000000000000001039727632000011204034560000000000000000000000000000000000112040345600000000000000000000104913025400001120403456000000000000000000001029789352000011193548800000000000000000000000000000000000))
 (.node 1 (.leaf 11204034560000000000000000000000000000000000112040345600000000000000000000000000000000001120403456000000000000000000001060392190000011204034560000000000000000000010681071070000111817523200000000000000000000104159330200001116733440000000000000000000001062572348000011120148480000000000000000000000000000000000110913126400000000000000000000000000000000001107558400000000000000000000000000000000000011004805120000000000000000000010440802960000107793612800000000000000000000000000000000001107558400000000000000000000000000000000000011179130880000000000000000000000000000000000111817523200000000000000000000000000000000001118961664000000000000000000000000000000000011204034560000000000000000000000000000000000)
 (.leaf 11204034560000000000000000000000000000000000112040345600000000000000000000106893342900001120403456000000000000000000001039761928000011204034560000000000000000000000000000000000111896166400000000000000000000000000000000001120403456000000000000000000001088989650000011204034560000000000000000000000000000000000112040345600000000000000000000000000000000001120403456000000000000000000000000000000000011204034560000000000000000000010784287090000112040345600000000000000000000105993595600001120403456000000000000000000001075195977000011204034560000000000000000000000000000000000112040345600000000000000000000000000000000001120403456000000000000000000001045314519000011204034560000000000000000000010745434980000)))))
 (.node 8 (.node 4 (.node 2 (.node 1 (.leaf 11204034560000000000000000000000000000000000112040345600000000000000000000000000000000001120403456000000000000000000000000000000000011204034560000000000000000000000000000000000112040345600000000000000000000000000000000001120403456000000000000000000000000000000000011204034560000000000000000000000000000000000112040345600000000000000000000000000000000001118680108000000000000000000000000000000000011204034560000000000000000000000000000000000112040345600000000000000000000000000000000001120403456000000000000000000000000000000000011204034560000000000000000000000000000000000112040345600000000000000000000000000000000001120403456000000000000000000000000000000000011204034560000000000000000000000000000000000)
 (.leaf 11204034560000000000000000000000000000000000112040345600000000000000000000000000000000001120403456000000000000000000001014910631000011204034560000000000000000000010681666620000112040345600000000000000000000000000000000001120403456000000000000000000000000000000000011204034560000000000000000000000000000000000110881781800000000000000000000000000000000001105389263000000000000000000000000000000000010908803690000000000000000000000000000000000109241574600000000000000000000000000000000001105859917000000000000000000000000000000000011060623440000000000000000000000000000000000109898985600000000000000000000000000000000001093243450000000000000000000000000000000000011005626160000000000000000000000000000000000))
 (.node 1 (.leaf 11045806010000000000000000000000000000000000109498293300000000000000000000000000000000001112801280000000000000000000000000000000000011112284160000000000000000000010393463880000111201484800000000000000000000000000000000001115684864000000000000000000000000000000000011156848640000000000000000000000000000000000110677196800000000000000000000000000000000001090787790000000000000000000000000000000000011020533760000000000000000000000000000000000111607808000000000000000000000000000000000001117126656000000000000000000000000000000000011163402240000000000000000000000000000000000111673344000000000000000000000000000000000001116340224000000000000000000001043681714000011179130880000000000000000000010729904050000)
 (.leaf 11204034560000000000000000000010700116180000112040345600000000000000000000106548561100001119617024000000000000000000001061630075000011135877120000000000000000000000000000000000111358771200000000000000000000000000000000001111228416000000000000000000000000000000000011163402240000000000000000000000000000000000111817523200000000000000000000105737954100001118568448000000000000000000001031869200000011204034560000000000000000000010414876120000111817523200000000000000000000106037443800001118961664000000000000000000001056343890000011181752320000000000000000000000000000000000111791308800000000000000000000000000000000001117126656000000000000000000000000000000000011141120000000000000000000000010522305640000)))
 (.node 2 (.node 1 (.leaf 11120148480000000000000000000000000000000000110677196800000000000000000000000000000000001096810496000000000000000000000000000000000011075584000000000000000000000000000000000000110755840000000000000000000000000000000000001099431936000000000000000000000000000000000011083448320000000000000000000000000000000000112040345600000000000000000000105085546800001120403456000000000000000000001053689700000011204034560000000000000000000000000000000000112040345600000000000000000000000000000000001120403456000000000000000000000000000000000011204034560000000000000000000000000000000000112040345600000000000000000000106206991800001120403456000000000000000000001042438036000011204034560000000000000000000010519880900000)
 (.leaf 11204034560000000000000000000000000000000000112040345600000000000000000000000000000000001120403456000000000000000000001044814198000011204034560000000000000000000010439824230000112040345600000000000000000000000000000000001120403456108538186700000000000994255794000011204034561077995834000000000000000000000000112040345600000000000000000000109001132500001120403456000000000000000000001077137089000011128998720000000000000000000000000000000000111016104400000000000000000000000000000000001120403456000000000000000000000000000000000011204034560000000000000000000010581593900000112040345600000000000000000000108337752200001120403456000000000000000000001050154696000011204034560000000000000000000000000000000000))
 (.node 1 (.leaf 11204034560000000000000000000000000000000000112040345600000000000000000000000000000000001120403456000000000000000000000000000000000011204034560000000000000000000000000000000000112040345600000000000000000000000000000000001120403456000000000000000000000000000000000011204034560000000000000000000000000000000000111593512000000000000000000000000000000000001110550118000000000000000000000000000000000011058139370000000000000000000000000000000000107881974200000000000000000000000000000000001099371171000000000000000000000000000000000011031115460000000000000000000000000000000000110424086300000000000000000000000000000000001113558640000000000000000000000000000000000011137302130000000000000000000000000000000000)
 (.leaf 11113530130000000000000000000000000000000000110912696500000000000000000000000000000000001098992897000000000000000000000000000000000011021611170000000000000000000000000000000000107825728600000000000000000000000000000000001102076602000000000000000000000000000000000011085773280000000000000000000000000000000000110036904800000000000000000000105122570600001008981770000000000000000000000000000000000011004585440000000000000000000000000000000000110743351500000000000000000000000000000000001107492261000000000000000000000000000000000010929197550000000000000000000000000000000000110042530400000000000000000000000000000000001109545609000000000000000000000000000000000011121021940000000000000000000000000000000000))))
 (.node 4 (.node 2 (.node 1 (.leaf 11034365530000000000000000000000000000000000109366476800000000000000000000000000000000001107558400000000000000000000001050382291000011135877120000000000000000000000000000000000111673344000000000000000000000000000000000001120403456000000000000000000001021787536000011204034560000000000000000000000000000000000109943193600000000000000000000100237761900001105199104000000000000000000000000000000000011104419840000000000000000000000000000000000111634022400000000000000000000000000000000001114112000000000000000000000000000000000000011175198720000000000000000000000000000000000110913126400000000000000000000000000000000001111228416000000000000000000000000000000000011075584000000000000000000000000000000000000)
 (.leaf 10779361280000000000000000000000000000000000110755840000000000000000000000000000000000001100480512000000000000000000000000000000000010994319360000000000000000000000000000000000108632473600000000000000000000103961485200001116929720000000000000000000000000000000000010968104960000000000000000000000000000000000110677196800000000000000000000000000000000001108344832000000000000000000000000000000000011120148480000000000000000000000000000000000111607808000000000000000000000000000000000001118175232000000000000000000000000000000000011204034560000000000000000000010353467250000112040345600000000000000000000000000000000001120403456000000000000000000001057182890000011204034560000000000000000000000000000000000))
 (.node 1 (.leaf 11204034560000000000000000000000000000000000112040345600000000000000000000102960155600001120403456000000000000000000001048047656000011204034560000000000000000000010476847630000111568486400000000000000000000000000000000001112014848000000000000000000000000000000000011036262400000000000000000000000000000000000110048051200000000000000000000000000000000001105199104000000000000000000000000000000000011104419840000000000000000000000000000000000111634022400000000000000000000000000000000001120403456000000000000000000000000000000000011204034560000000000000000000000000000000000112040345600000000000000000000104639478700001120403456000000000000000000000000000000000011204034560000000000000000000010423717990000)
 (.leaf 11204034560000000000000000000000000000000000112040345600000000000000000000000000000000001120403456000000000000000000000000000000000011204034560000000000000000000000000000000000112040345600000000000000000000000000000000001120403456000000000000000000000000000000000011204034560000000000000000000000000000000000112040345600000000000000000000000000000000001120403456000000000000000000000000000000000011204034560000000000000000000000000000000000112040345600000000000000000000000000000000001120403456000000000000000000000000000000000011204034560000000000000000000000000000000000112040345600000000000000000000000000000000001120403456000000000000000000000000000000000011204034560000000000000000000000000000000000)))
 (.node 2 (.node 1 (.leaf 11204034560000000000000000000000000000000000112040345600000000000000000000000000000000001120403456000000000000000000000000000000000011204034560000000000000000000000000000000000112040345610780092640000000000105623780000001120403456104155923100000000001025068594000011204034560000000000000000000010469767180000112040345600000000000000000000000000000000001120403456000000000000000000000000000000000011204034560000000000000000000010451764160000112040345600000000000000000000105823301300001120403456000000000000000000001054523042000011204034560000000000000000000009966264330001112040345600000000000000000000104571576800021120403456000000000000000000000000000000000311204034560000000000000000000000000000000000)
 (.leaf 11204034560000000000000000000000000000000000112040345600000000000000000000000000000000001117095409000000000000000000001040302400000011170558120000000000000000000010508981610000111738581200000000000000000000000000000000001114696581000000000000000000000000000000000011126288940000000000000000000000000000000000110118992600000000000000000000000000000000001008981770000000000000000000000000000000000010515474460000000000000000000000000000000000109650714300000000000000000000000000000000001103212315000000000000000000000000000000000011079752090000000000000000000000000000000000110912982200000000000000000000000000000000001108931877000000000000000000000000000000000010995443960000000000000000000000000000000000))
 (.node 1 (.leaf 11091805730000000000000000000000000000000000109393016300000000000000000000000000000000001106221203000000000000000000000000000000000011168010470000000000000000000000000000000000111675378200000000000000000000000000000000001115540606000000000000000000000000000000000011077479560000000000000000000000000000000000108669647700000000000000000000000000000000001102927154000000000000000000000000000000000011071799160000000000000000000000000000000000110894763200000000000000000000000000000000001113136090000000000000000000000000000000000011160810290000000000000000000000000000000000111365471600000000000000000000000000000000001114077056000000000000000000000000000000000011144725530000000000000000000000000000000000)
 (.leaf 11089578820000000000000000000000000000000000110757625200000000000000000000000000000000001086890359000000000000000000000000000000000011138790850000000000000000000000000000000000111677809600000000000000000000000000000000001117827878000000000000000000000000000000000011173457950000000000000000000000000000000000111553082800000000000000000000000000000000001099104780000000000000000000000000000000000011018420360000000000000000000000000000000000111371949200000000000000000000000000000000001113185636000000000000000000000000000000000011138490430000000000000000000000000000000000111186650100000000000000000000000000000000001101558291000000000000000000000000000000000011041724430000000000000000000000000000000000))))))
 (.node 16 (.node 8 (.node 4 (.node 2 (.node 1 (.leaf 10981046480000000000000000000000000000000000100898177000000000000000000000000000000000001099913966000000000000000000000000000000000011171088040000000000000000000000000000000000112005459400000000000000000000105062847000001120403456000000000000000000001039845737000011204034560000000000000000000000000000000000112040345600000000000000000000000000000000001120403456000000000000000000000000000000000011204034560000000000000000000000000000000000111901401400000000000000000000000000000000001112913897000000000000000000000000000000000011046204470000000000000000000000000000000000108648154000000000000000000000000000000000001104976177000000000000000000000000000000000011051991040000000000000000000000000000000000)
 (.leaf 10965366080000000000000000000000000000000000111122002700000000000000000000000000000000001114228838000000000000000000000000000000000010905190400000000000000000000010586048220000110913126400000000000000000000000000000000001115684864000000000000000000001047391484000011179130880000000000000000000010743977420000112040345600000000000000000000105661585400001120403456000000000000000000000000000000000011204034560000000000000000000000000000000000112001024000000000000000000000105325855700001100480512000000000000000000000000000000000011135877120000000000000000000000000000000000111896166400000000000000000000104842493400001118961664000000000000000000000000000000000011196170240000000000000000000000000000000000))
 (.node 1 (.leaf 11181752320000000000000000000000000000000000111817523200000000000000000000000000000000001115684864000000000000000000000000000000000011104419840000000000000000000000000000000000111358771200000000000000000000000000000000001117126656000000000000000000000000000000000011204034560000000000000000000010429192070000112040345600000000000000000000000000000000001120403456000000000000000000000000000000000011204034560000000000000000000000000000000000112040345600000000000000000000000000000000001120403456000000000000000000000000000000000011204034560000000000000000000000000000000000112040345600000000000000000000000000000000001120403456000000000000000000000000000000000011175198720000000000000000000010231646310000)
 (.leaf 11185684480000000000000000000000000000000000109681049600000000000000000000000000000000001103626240000000000000000000000000000000000011163402240000000000000000000010468157020000111817523200000000000000000000000000000000001118175232000000000000000000001047196799000011204034560000000000000000000010580668400000112040345600000000000000000000000000000000001120403456000000000000000000001075701304000011204034560000000000000000000000000000000000112040345600000000000000000000000000000000001120403456000000000000000000000000000000000011204034560000000000000000000000000000000000112040345600000000000000000000000000000000001120403456000000000000000000000000000000000011204034560000000000000000000000000000000000)))
 (.node 2 (.node 1 (.leaf 11204034560000000000000000000000000000000000112040345600000000000000000000000000000000001120403456000000000000000000000000000000000011204034560000000000000000000000000000000000112040345600000000000000000000000000000000001120403456000000000000000000000000000000000011204034560000000000000000000000000000000000112040345600000000000000000000000000000000001120403456000000000000000000000000000000000011204034561081222994000000000010495789260000112040345600000000000000000000000000000000001120403456000000000000000000000000000000000011204034560000000000000000000000000000000000112040345600000000000000000000105069969000001120403456000000000000000000000000000000000011204034560000000000000000000000000000000000)
 (.leaf 11152847010000000000000000000000000000000000110857465400000000000000000000000000000000001109871952000000000000000000001071451930000011082286240000000000000000000000000000000000111173029100000000000000000000000000000000001117485911000000000000000000000000000000000011179927800000000000000000000000000000000000111274303200000000000000000000000000000000001111253687000000000000000000000000000000000011094299250000000000000000000000000000000000110159656400000000000000000000000000000000001118275922000000000000000000000000000000000011129555780000000000000000000000000000000000111017894900000000000000000000000000000000001116248670000000000000000000000000000000000011141524490000000000000000000000000000000000))
 (.node 1 (.leaf 11119967080000000000000000000000000000000000110882654800000000000000000000000000000000001108565164000000000000000000000000000000000011067812480000000000000000000000000000000000108723085200000000000000000000000000000000001077441578000000000000000000000000000000000010946993980000000000000000000000000000000000109502959500000000000000000000000000000000001085885215000000000000000000000000000000000010886697290000000000000000000000000000000000109109815800000000000000000000000000000000001107716630000000000000000000000000000000000011094823530000000000000000000000000000000000111661767700000000000000000000000000000000001112393463000000000000000000000000000000000011077536190000000000000000000000000000000000)
 (.leaf 11087411150000000000000000000000000000000000109971022800000000000000000000000000000000001092250921000000000000000000000000000000000011071305290000000000000000000000000000000000111127395000000000000000000000000000000000001100171811000000000000000000000000000000000010873090760000000000000000000000000000000000111302525600000000000000000000000000000000001114102563000000000000000000000000000000000011107953020000000000000000000000000000000000111670594100000000000000000000000000000000001112817192000000000000000000000000000000000011042181090000000000000000000000000000000000110347278100000000000000000000000000000000001106659561000000000000000000000000000000000010994875110000000000000000000000000000000000))))
 (.node 4 (.node 2 (.node 1 (.leaf 11022578480000000000000000000000000000000000110137075300000000000000000000000000000000001103947576000000000000000000000000000000000011102337110000000000000000000000000000000000111597931700000000000000000000000000000000001118612435000000000000000000001073526471000011200026240000000000000000000010760045120000111932039500000000000000000000106068226600001117513096000000000000000000001033448007000011179825820000000000000000000000000000000000111772653300000000000000000000000000000000001117571187000000000000000000000000000000000011178304600000000000000000000000000000000000111562997100000000000000000000000000000000001104467355000000000000000000000000000000000010883026860000000000000000000000000000000000)
 (.leaf 11027569180000000000000000000000000000000000109681049600000000000000000000000000000000001099431936000000000000000000001040050779000010835752020000000000000000000010458370370000110975448500000000000000000000107667595700001117214015000000000000000000001035492496000011183575530000000000000000000000000000000000111817523200000000000000000000000000000000001120010240000000000000000000000000000000000011204034560000000000000000000000000000000000112040345600000000000000000000000000000000001120403456000000000000000000000000000000000011204034560000000000000000000000000000000000112040345600000000000000000000000000000000001115684864000000000000000000001075512647000011141120000000000000000000000010833811080000))
 (.node 1 (.leaf 11167334400000000000000000000010885244980000112040345600000000000000000000000000000000001120403456000000000000000000000000000000000011193548800000000000000000000010603942510000112040345600000000000000000000102793086200001119617024000000000000000000001053803637000011204034560000000000000000000010555346840000112040345600000000000000000000000000000000001117913088000000000000000000000973492591000011175198720000000000000000000010610571100000110519910400000000000000000000105844909600001112014848000000000000000000001062133277000011120148480000000000000000000010358414750000110519910400000000000000000000103371923100001096810496000000000000000000000000000000000010834995160000000000000000000000000000000000)
 (.leaf 11204034560000000000000000000000000000000000112040345600000000000000000000000000000000001120403456000000000000000000000000000000000011204034560000000000000000000000000000000000112040345600000000000000000000000000000000001120403456000000000000000000000000000000000011204034560000000000000000000000000000000000112040345600000000000000000000000000000000001120403456000000000000000000000000000000000011204034560000000000000000000000000000000000112040345600000000000000000000000000000000001120403456000000000000000000000000000000000011204034560000000000000000000000000000000000112040345600000000000000000000000000000000001120403456000000000000000000000000000000000011204034560000000000000000000000000000000000)))
 (.node 2 (.node 1 (.leaf 11204034560000000000000000000000000000000000112040345600000000000000000000000000000000001120403456000000000000000000000000000000000011204034560000000000000000000000000000000000112040345600000000000000000000000000000000001120403456000000000000000000000000000000000011204034560000000000000000000000000000000000112040345600000000000000000000000000000000001120403456000000000000000000000000000000000011204034560000000000000000000000000000000000112040345600000000000000000000000000000000001120403456000000000000000000001043021757000011131452390000000000000000000000000000000000111506381900000000000000000000000000000000001111362241000000000000000000000000000000000011204034560000000000000000000000000000000000)
 (.leaf 11204034560000000000000000000000000000000000112040345600000000000000000000106039947900001120403456000000000000000000000000000000000011204034560000000000000000000010459601280000112040345600000000000000000000000000000000001120403456000000000000000000000000000000000011204034560000000000000000000000000000000000112040345600000000000000000000107433287600001120403456000000000000000000001051386312000011204034560000000000000000000000000000000000112040345600000000000000000000000000000000001120403456000000000000000000000000000000000011204034560000000000000000000000000000000000111298150400000000000000000000000000000000001116021195000000000000000000000000000000000011162199000000000000000000000000000000000000))
 (.node 1 (.leaf 11164610200000000000000000000000000000000000112040345600000000000000000000000000000000001120403456000000000000000000001073011741000011204034560000000000000000000010779517410000112040345600000000000000000000106230611200001120403456000000000000000000001048813848000011204034560000000000000000000000000000000000112040345600000000000000000000000000000000001120403456000000000000000000000000000000000011204034560000000000000000000000000000000000112040345600000000000000000000000000000000001113912613000000000000000000000000000000000011076390090000000000000000000000000000000000107638260000000000000000000000000000000000001090728923000000000000000000000000000000000010939254440000000000000000000000000000000000)
 (.leaf 10931713080000000000000000000000000000000000109573874600000000000000000000000000000000001100474325000000000000000000000000000000000010924230970000000000000000000000000000000000109989320500000000000000000000000000000000001111610805000000000000000000000000000000000011124465470000000000000000000000000000000000111516697200000000000000000000105353869800001113472972000000000000000000000000000000000011081923170000000000000000000000000000000000111505013500000000000000000000000000000000001119494078000000000000000000000000000000000011204034560000000000000000000000000000000000112040345600000000000000000000106144753900001120399327000000000000000000001077660145000011197052620000000000000000000010921669150000)))))
 (.node 8 (.node 4 (.node 2 (.node 1 (.leaf 11189991110000000000000000000010578177540000111801314800000000000000000000000000000000001117256994000000000000000000000000000000000011201040350000000000000000000010280773030000112034768500000000000000000000105273654000001117625949000000000000000000000000000000000011175198720000000000000000000000000000000000111712665600000000000000000000105272030100001118175232000000000000000000000000000000000011179130880000000000000000000000000000000000111489843200000000000000000000000000000000001106771968000000000000000000000000000000000010968104960000000000000000000000000000000000109211084100000000000000000000104867143100001107358149000000000000000000001033488764000011088262590000000000000000000010422083320000)
 (.leaf 10863247360000000000000000000000000000000000110677196800000000000000000000104531708000001102053376000000000000000000001067807325000011163402240000000000000000000000000000000000112040345600000000000000000000000000000000001120403456000000000000000000000000000000000011204034560000000000000000000010610706480000111856844800000000000000000000107064119100001118175232000000000000000000001073093705000011179130880000000000000000000010693826000000110834483200000000000000000000000000000000001109131264000000000000000000000000000000000011175198720000000000000000000010642776090000112040345600000000000000000000104580831500001120010240000000000000000000000000000000000011204034560000000000000000000010488225570000))
 (.node 1 (.leaf 11204034560000000000000000000010546032440000111568486400000000000000000000108342058900001109917696000000000000000000001042874238000011099176960000000000000000000000000000000000111607808000000000000000000000106758902000001110441984000000000000000000001046195036000011112284160000000000000000000010542760690000107793612800000000000000000000000000000000001073373061000000000000000000000000000000000010089817700000000000000000000000000000000000110755840000000000000000000000107456611400001120403456000000000000000000000000000000000011204034560000000000000000000000000000000000112040345600000000000000000000000000000000001120403456000000000000000000000000000000000011204034560000000000000000000000000000000000)
 (.leaf 11204034560000000000000000000000000000000000112040345600000000000000000000000000000000001120403456000000000000000000000000000000000011204034560000000000000000000000000000000000112040345600000000000000000000000000000000001120403456000000000000000000000000000000000011204034560000000000000000000000000000000000112040345600000000000000000000105041291700001120403456000000000000000000001068430649000011204034560000000000000000000010644302350000112040345600000000000000000000000000000000001008981770000000000000000000000000000000000011008529670000000000000000000010433571610000108921545000000000000000000000000000000000001120403456000000000000000000001067344473000011204034560000000000000000000000000000000000)))
 (.node 2 (.node 1 (.leaf 11204034560000000000000000000000000000000000112040345600000000000000000000000000000000001120403456000000000000000000000000000000000011204034560000000000000000000000000000000000112040345600000000000000000000000000000000001120403456000000000000000000000000000000000011204034560000000000000000000000000000000000112040345600000000000000000000000000000000001120403456000000000000000000000000000000000011079193720000000000000000000000000000000000110684730800000000000000000000104374028500001105642704000000000000000000000000000000000011054792310000000000000000000000000000000000112040345600000000000000000000000000000000001120403456000000000000000000000000000000000011204034560000000000000000000000000000000000)
 (.leaf 11204034560000000000000000000000000000000000112040345600000000000000000000000000000000001120403456000000000000000000000000000000000011204034560000000000000000000000000000000000112040345600000000000000000000000000000000001120403456000000000000000000000000000000000011204034560000000000000000000000000000000000107740403900000000000000000000000000000000001082907846000000000000000000000000000000000010591559980000000000000000000000000000000000104857814700000000000000000000000000000000001083805113000000000000000000000000000000000010786337670000000000000000000000000000000000109468199200000000000000000000000000000000001100480512000000000000000000000000000000000011036262400000000000000000000010757321180000))
 (.node 1 (.leaf 11036262400000000000000000000000000000000000110755840000000000000000000000000000000000001110441984000000000000000000001071723085000011120148480000000000000000000010864748610000111201484800000000000000000000109141362100001112014848000000000000000000001075884544000011141120000000000000000000000000000000000000111201484800000000000000000000000000000000001096810496000000000000000000000000000000000011067719680000000000000000000000000000000000111411200000000000000000000000000000000000001116078080000000000000000000001052870245000011051991040000000000000000000000000000000000109530631400000000000000000000000000000000001090519040000000000000000000001053359518000011051991040000000000000000000000000000000000)
 (.leaf 11075584000000000000000000000000000000000000110755840000000000000000000000105141457600001102053376000000000000000000000000000000000011104419840000000000000000000000000000000000112001024000000000000000000000105141702900001120403456000000000000000000000000000000000011171266560000000000000000000000000000000000111673344000000000000000000000104886339300001105199104000000000000000000001037525428000011075584000000000000000000000000000000000000111791308800000000000000000000000000000000001116078080000000000000000000000000000000000011120148480000000000000000000000000000000000110677196800000000000000000000000000000000001090811257000000000000000000000000000000000010779361280000000000000000000000000000000000))))
 (.node 4 (.node 2 (.node 1 (.leaf 11204034560000000000000000000010641036570000112040345600000000000000000000106280212300001119617024000000000000000000001042353209000011204034560000000000000000000000000000000000111122841600000000000000000000103445619300001109131264000000000000000000001056985099000011135877120000000000000000000010681053350000111751987200000000000000000000000000000000001117126656000000000000000000000000000000000011167334400000000000000000000010534127960000111607808000000000000000000000107518609400001116078080000000000000000000000000000000000011175198720000000000000000000000000000000000111634022400000000000000000000000000000000001120403456000000000000000000000000000000000011204034560000000000000000000000000000000000)
 (.leaf 11179130880000000000000000000010709475190000112040345600000000000000000000096725472400001118961664000000000000000000001071217198000011175198720000000000000000000000000000000000110913126400000000000000000000000000000000001096810496000000000000000000000000000000000011020533760000000000000000000000000000000000110755840000000000000000000000000000000000001112014848000000000000000000001049954094000011156848640000000000000000000000000000000000111607808000000000000000000000106287682800001120403456000000000000000000001062450161000011204034560000000000000000000010730316990000112040345600000000000000000000106931014900001120403456000000000000000000001078402374000011204034560000000000000000000000000000000000))
 (.node 1 (.leaf 11204034560000000000000000000000000000000000112040345600000000000000000000000000000000001120403456000000000000000000000000000000000011204034560000000000000000000000000000000000112040345600000000000000000000000000000000001120403456000000000000000000000000000000000011204034560000000000000000000000000000000000112040345600000000000000000000000000000000001120403456000000000000000000000000000000000011204034560000000000000000000000000000000000112040345600000000000000000000000000000000001120403456000000000000000000000000000000000011204034560000000000000000000000000000000000112040345600000000000000000000000000000000001120403456000000000000000000000000000000000011204034560000000000000000000000000000000000)
 (.leaf 11204034560000000000000000000000000000000000112040345600000000000000000000000000000000001120403456000000000000000000000000000000000011204034560000000000000000000000000000000000112040345600000000000000000000000000000000001120403456000000000000000000000000000000000011204034560000000000000000000010332427250000112040345600000000000000000000108322842300001112953769000000000000000000001045833564000011077854170000000000000000000000000000000000109964789000000000000000000000000000000000001105087851000000000000000000001043519808000010804233920000000000000000000000000000000000109643196000000000000000000000000000000000001109227654000000000000000000001028883805000011052764360000000000000000000000000000000000)))
 (.node 2 (.node 1 (.leaf 11090368140000000000000000000000000000000000111641736000000000000000000000000000000000001119509558000000000000000000000000000000000011204034560000000000000000000000000000000000112040345600000000000000000000000000000000001120403456000000000000000000000000000000000011204034560000000000000000000000000000000000112040345600000000000000000000000000000000001120403456000000000000000000000000000000000011204034560000000000000000000000000000000000112037462000000000000000000000000000000000001117879809000000000000000000000000000000000011161099300000000000000000000010378815660000111260454100000000000000000000106479610900001120403456000000000000000000001060889800000011204034560000000000000000000010483951160000)
 (.leaf 10991804350000000000000000000000000000000000105140168600000000000000000000000000000000001073482784000000000000000000000000000000000010994319360000000000000000000000000000000000110519910400000000000000000000000000000000001111228416000000000000000000001048926175000011120148480000000000000000000010618314650000111201484800000000000000000000000000000000001110441984000000000000000000000000000000000010994319360000000000000000000000000000000000110205337600000000000000000000000000000000001120010240000000000000000000001052542603000011204034560000000000000000000010660047670000112040345600000000000000000000105385374900001118175232000000000000000000000000000000000011204034560000000000000000000010598150640000))
 (.node 1 (.leaf 11204034560000000000000000000000000000000000112040345600000000000000000000000000000000001112014848000000000000000000000000000000000011075584000000000000000000000000000000000000110755840000000000000000000000000000000000001109131264000000000000000000000000000000000011120148480000000000000000000010599152890000110991769600000000000000000000103372720800001114112000000000000000000000000000000000000011160780800000000000000000000000000000000000111607808000000000000000000000104182871700001112014848000000000000000000000000000000000011112284160000000000000000000000000000000000110834483200000000000000000000103521265900001111228416000000000000000000000000000000000011112284160000000000000000000010522957000000)
 (.leaf 11099176960000000000000000000000000000000000111201484800000000000000000000000000000000001116078080000000000000000000000000000000000011196170240000000000000000000000000000000000112040345600000000000000000000000000000000001103626240000000000000000000000000000000000010936647680000000000000000000000000000000000111568486400000000000000000000000000000000001117126656000000000000000000000000000000000011196170240000000000000000000000000000000000112040345600000000000000000000000000000000001120403456000000000000000000000000000000000011193548800000000000000000000000000000000000111044198400000000000000000000102660287400001113587712000000000000000000001069381049000011160780800000000000000000000000000000000000)))))))
 (.node 32 (.node 16 (.node 8 (.node 4 (.node 2 (.node 1 (.leaf 11179130880000000000000000000010249984090000111280128000000000000000000000107908808100001116078080000000000000000000000000000000000011051991040000000000000000000000000000000000111817523200000000000000000000000000000000001116078080000000000000000000000000000000000011141120000000000000000000000000000000000000111751987200000000000000000000107573294300001114112000000000000000000000001050383357000011200102400000000000000000000000000000000000111896166400000000000000000000000000000000001120403456000000000000000000000000000000000011204034560000000000000000000000000000000000112040345600000000000000000000000000000000001120403456000000000000000000000000000000000011181752320000000000000000000010606344920000)
 (.leaf 11167334400000000000000000000010413378670000110205337600000000000000000000000000000000001109131264000000000000000000001063669875000011196170240000000000000000000010488704110000112040345600000000000000000000000000000000001120403456000000000000000000000000000000000011204034560000000000000000000010601157730000112040345600000000000000000000000000000000001120403456000000000000000000000000000000000011204034560000000000000000000000000000000000112040345600000000000000000000000000000000001120403456000000000000000000000000000000000011204034560000000000000000000000000000000000112040345600000000000000000000000000000000001120403456000000000000000000000000000000000011204034560000000000000000000000000000000000))
 (.node 1 (.leaf 11204034560000000000000000000000000000000000112040345600000000000000000000000000000000001120403456000000000000000000000000000000000011204034560000000000000000000000000000000000112040345600000000000000000000000000000000001120403456000000000000000000000000000000000011204034560000000000000000000000000000000000112040345600000000000000000000000000000000001120403456000000000000000000000000000000000011204034560000000000000000000000000000000000112040345600000000000000000000000000000000001120403456000000000000000000000000000000000011204034560000000000000000000000000000000000112040345600000000000000000000000000000000001120403456000000000000000000000000000000000011204034560000000000000000000000000000000000)
 (.leaf 11204034560000000000000000000000000000000000112040345600000000000000000000000000000000001120403456000000000000000000000000000000000011204034560000000000000000000000000000000000112040345600000000000000000000000000000000001120403456000000000000000000000000000000000011204034560000000000000000000000000000000000112040345600000000000000000000000000000000001120403456000000000000000000000000000000000011204034560000000000000000000000000000000000112040345600000000000000000000000000000000001120403456000000000000000000000000000000000011204034560000000000000000000000000000000000112040345600000000000000000000106357524400001120403456000000000000000000001062939001000011204034560000000000000000000010541034980000)))
 (.node 2 (.node 1 (.leaf 11204034560000000000000000000010518554130000112040345600000000000000000000106325837300001120403456000000000000000000001071658077000010867243900000000000000000000000000000000000108687876200000000000000000000000000000000001089885259000000000000000000001038831402000011054356630000000000000000000000000000000000109309025300000000000000000000000000000000001103927863000000000000000000001043393260000010862424440000000000000000000000000000000000110552342900000000000000000000103754495400001120403456000000000000000000000000000000000011204034560000000000000000000010630341020000112040345600000000000000000000099916791000001120403456000000000000000000000000000000000011204034560000000000000000000000000000000000)
 (.leaf 11204034560000000000000000000000000000000000112040345600000000000000000000000000000000001086500331000000000000000000000000000000000010822505780000000000000000000000000000000000111032947200000000000000000000000000000000001120403456000000000000000000000000000000000011204034560000000000000000000010249229540000111348689100000000000000000000104425841200001111693695000000000000000000000000000000000010990114050000000000000000000000000000000000112001024000000000000000000000000000000000001118568448000000000000000000001057340881000011160780800000000000000000000000000000000000111358771200000000000000000000000000000000001115684864000000000000000000001053061666000011120148480000000000000000000000000000000000))
 (.node 1 (.leaf 11120148480000000000000000000000000000000000111044198400000000000000000000000000000000001107558400000000000000000000000000000000000010994319360000000000000000000000000000000000109681049600000000000000000000000000000000001099431936000000000000000000000000000000000010994319360000000000000000000000000000000000109051904000000000000000000000000000000000001112014848000000000000000000001049492416000011020533760000000000000000000010673902690000111044198400000000000000000000104895456800001118175232000000000000000000001066658480000011204034560000000000000000000000000000000000112040345600000000000000000000000000000000001111228416000000000000000000000000000000000011004805120000000000000000000000000000000000)
 (.leaf 10863247360000000000000000000010506892530000111201484800000000000000000000000000000000001103626240000000000000000000000000000000000011112284160000000000000000000000000000000000110205337600000000000000000000000000000000001096810496000000000000000000000000000000000011104419840000000000000000000000000000000000111201484800000000000000000000103792136700001109917696000000000000000000000000000000000011067719680000000000000000000000000000000000111122841600000000000000000000104939329800001112801280000000000000000000000000000000000011171266560000000000000000000000000000000000111607808000000000000000000000000000000000001112014848000000000000000000001056380415000011112284160000000000000000000000000000000000))))
 (.node 4 (.node 2 (.node 1 (.leaf 11083448320000000000000000000010084921560000110755840000000000000000000000000000000000001092613759000000000000000000000000000000000011036262400000000000000000000000000000000000110755840000000000000000000000000000000000001093664768000000000000000000000000000000000011141120000000000000000000000000000000000000111607808000000000000000000000000000000000001116078080000000000000000000000000000000000011128012800000000000000000000000000000000000111712665600000000000000000000108886047900001117913088000000000000000000001092419224000011204034560000000000000000000010758557070000112001024000000000000000000000000000000000001113587712000000000000000000000000000000000011204034560000000000000000000000000000000000)
 (.leaf 11181752320000000000000000000010910625300000112040345600000000000000000000000000000000001120403456000000000000000000000000000000000011204034560000000000000000000000000000000000110048051200000000000000000000000000000000001096810496000000000000000000000000000000000010994319360000000000000000000010338817950000107296654900000000000000000000000000000000001087486432000000000000000000000000000000000011075584000000000000000000000000000000000000111044198400000000000000000000107216372800001120403456000000000000000000001075000071000011189616640000000000000000000000000000000000111817523200000000000000000000104607198400001120403456000000000000000000000000000000000011204034560000000000000000000000000000000000))
 (.node 1 (.leaf 11204034560000000000000000000000000000000000112040345600000000000000000000000000000000001120403456000000000000000000000000000000000011204034560000000000000000000000000000000000112040345600000000000000000000000000000000001120403456000000000000000000000000000000000011204034560000000000000000000000000000000000112040345600000000000000000000000000000000001120403456000000000000000000000000000000000011204034560000000000000000000000000000000000112040345600000000000000000000000000000000001120403456000000000000000000000000000000000011204034560000000000000000000000000000000000112040345600000000000000000000000000000000001120403456000000000000000000000000000000000011204034560000000000000000000000000000000000)
 (.leaf 11204034560000000000000000000000000000000000112040345600000000000000000000000000000000001120403456000000000000000000000000000000000011204034560000000000000000000000000000000000112040345600000000000000000000000000000000001120403456000000000000000000000000000000000011204034560000000000000000000000000000000000112040345600000000000000000000000000000000001120403456000000000000000000000000000000000011204034560000000000000000000000000000000000112040345600000000000000000000000000000000001120403456000000000000000000000000000000000011204034560000000000000000000000000000000000112040345600000000000000000000000000000000001120403456000000000000000000000000000000000011204034560000000000000000000000000000000000)))
 (.node 2 (.node 1 (.leaf 11204034560000000000000000000000000000000000112040345600000000000000000000103843161700001120403456000000000000000000001068998873000011204034560000000000000000000010709376720000112040345600000000000000000000108844520700001120403456000000000000000000001073990826000011121962520000000000000000000000000000000000111020466500000000000000000000104344649800001090748301000000000000000000000000000000000011055947320000000000000000000000000000000000110646835300000000000000000000105700276700001114724185000000000000000000000000000000000011135190300000000000000000000000000000000000112040345600000000000000000000000000000000001120403456000000000000000000000000000000000011204034560000000000000000000000000000000000)
 (.leaf 11169618850000000000000000000000000000000000111237346100000000000000000000000000000000001120217216000000000000000000000000000000000011184159060000000000000000000010607290090000111956328500000000000000000000108237427900001119804601000000000000000000000000000000000011161725170000000000000000000000000000000000110403114800000000000000000000000000000000001008981770000000000000000000000000000000000010718599240000000000000000000000000000000000109051904000000000000000000000000000000000001099431936000000000000000000000000000000000010863247360000000000000000000000000000000000109943193600000000000000000000000000000000001107558400000000000000000000000000000000000011051991040000000000000000000000000000000000))
 (.node 1 (.leaf 11160780800000000000000000000010412801620000111607808000000000000000000000095629841300001116078080000000000000000000001056548266000011156848640000000000000000000000000000000000111411200000000000000000000000106193871300001120010240000000000000000000001027288177000011200102400000000000000000000010573559730000111568486400000000000000000000104969076600001099431936000000000000000000001036942467000011128012800000000000000000000000000000000000111358771200000000000000000000000000000000001112014848000000000000000000000000000000000011112284160000000000000000000000000000000000110677196800000000000000000000000000000000001075257729000000000000000000000000000000000010089817700000000000000000000000000000000000)
 (.leaf 10915125970000000000000000000000000000000000111122841600000000000000000000105897048100001114898432000000000000000000001041145182000010863247360000000000000000000000000000000000109943193600000000000000000000000000000000001086324736000000000000000000000000000000000010833062420000000000000000000000000000000000109051904000000000000000000000000000000000001099431936000000000000000000001028495376000010905190400000000000000000000000000000000000110913126400000000000000000000000000000000001112014848000000000000000000000000000000000011067719680000000000000000000000000000000000112040345600000000000000000000000000000000001118175232000000000000000000000000000000000011179130880000000000000000000000000000000000)))))
 (.node 8 (.node 4 (.node 2 (.node 1 (.leaf 11167334400000000000000000000000000000000000112040345600000000000000000000000000000000001120403456000000000000000000001049613982000011181752320000000000000000000010845654700000111791308800000000000000000000000000000000001116340224000000000000000000000000000000000011067719680000000000000000000010615255200000109681049600000000000000000000000000000000001093664768000000000000000000000000000000000010994319360000000000000000000000000000000000109681049600000000000000000000000000000000001111228416000000000000000000001042731410000011141120000000000000000000000000000000000000111201484800000000000000000000106811659500001112014848000000000000000000000000000000000011148984320000000000000000000000000000000000)
 (.leaf 11179130881064312878000000000010398924700000111817523210828402400000000000103209029300001118175232108297355600000000001066875553000011179130881082546025000000000010824261820000112040345600000000000000000000105748675300001120403456000000000000000000000000000000000011204034560000000000000000000000000000000000112040345600000000000000000000000000000000001120403456000000000000000000000000000000000011204034560000000000000000000000000000000000112040345600000000000000000000000000000000001120403456000000000000000000000000000000000011204034560000000000000000000000000000000000112040345600000000000000000000000000000000001120403456000000000000000000000000000000000011204034560000000000000000000000000000000000))
 (.node 1 (.leaf 11204034560000000000000000000000000000000000112040345600000000000000000000000000000000001120403456000000000000000000000000000000000011204034560000000000000000000000000000000000112040345600000000000000000000000000000000001120403456000000000000000000000000000000000011204034560000000000000000000000000000000000112040345600000000000000000000000000000000001120403456000000000000000000000000000000000011204034560000000000000000000000000000000000112040345600000000000000000000000000000000001120403456000000000000000000000000000000000011204034560000000000000000000000000000000000112040345600000000000000000000000000000000001120403456000000000000000000000000000000000011204034560000000000000000000000000000000000)
 (.leaf 11204034560000000000000000000000000000000000112040345600000000000000000000000000000000001120403456000000000000000000000000000000000011204034560000000000000000000000000000000000112040345600000000000000000000000000000000001120403456000000000000000000000000000000000011204034560000000000000000000000000000000000112040345600000000000000000000000000000000001120403456000000000000000000001051314717000011204034561039047481000000000010810999530000111640164400000000000000000000106640379600001111112522000000000000000000000000000000000011146701830000000000000000000000000000000000110271812100000000000000000000000000000000001109577119000000000000000000001043624139000011155843320000000000000000000010189891900000)))
 (.node 2 (.node 1 (.leaf 11204034560000000000000000000000000000000000112040345600000000000000000000000000000000001120403456000000000000000000000000000000000011204034560000000000000000000000000000000000112040345600000000000000000000000000000000001120403456000000000000000000000000000000000010332040840000000000000000000000000000000000108771076500000000000000000000000000000000001050615036000000000000000000000000000000000010564721630000000000000000000000000000000000110559557100000000000000000000000000000000001103014344000000000000000000001048923694000010746095000000000000000000000000000000000000100898177000000000000000000000000000000000001070036492000000000000000000000000000000000010905190400000000000000000000000000000000000)
 (.leaf 10905190400000000000000000000000000000000000109604776200000000000000000000000000000000001100480512000000000000000000000000000000000010863247360000000000000000000000000000000000111044198400000000000000000000000000000000001120403456000000000000000000000000000000000011204034560000000000000000000000000000000000111634022400000000000000000000099264640900001119617024000000000000000000001040526889000011204034560000000000000000000010382453880000112040345600000000000000000000000000000000001117126656000000000000000000001065307067000011185684480000000000000000000000000000000000112040345600000000000000000000000000000000001119354880000000000000000000000000000000000011156848640000000000000000000000000000000000))
 (.node 1 (.leaf 10968104960000000000000000000000000000000000110991769600000000000000000000103942428200001107558400000000000000000000001051283991000011067565020000000000000000000000000000000000110913126400000000000000000000105112057200001115684864000000000000000000001047352118000010905190400000000000000000000010680389020000108505648300000000000000000000102653838800001107558400000000000000000000001049704884000010863247360000000000000000000000000000000000110205337600000000000000000000000000000000001107558400000000000000000000001046073782000010994319360000000000000000000010398621610000110205337600000000000000000000106766667200001099431936000000000000000000001069199702000011002439530000000000000000000000000000000000)
 (.leaf 10994319360000000000000000000010371741110000111634022400000000000000000000105811275300001120403456000000000000000000001004068485000011204034560000000000000000000000000000000000111896166400000000000000000000000000000000001117519872000000000000000000000000000000000011163402240000000000000000000010492754460000110834483200000000000000000000000000000000001105199104000000000000000000001072262127000011075584000000000000000000000010608667310000110755840000000000000000000000103183953800001107558400000000000000000000001065515320000010994319360000000000000000000010362657200000111568486400000000000000000000000000000000001103626240000000000000000000001050007146000011148984320000000000000000000000000000000000))))
 (.node 4 (.node 2 (.node 1 (.leaf 11179130880000000000000000000010819219300000112040345600000000000000000000105770141200001120403456000000000000000000001074500542000011185684480000000000000000000010610528250000112001024000000000000000000000107362181500001119617024000000000000000000001082326845000011204034560000000000000000000000000000000000112001024000000000000000000000000000000000001120403456000000000000000000001056061205000011179130880000000000000000000010786787620000111712665600000000000000000000106198179200001120403456000000000000000000001069873461000011204034560000000000000000000010693293620000112040345600000000000000000000107030754100001120403456000000000000000000000000000000000011167334400000000000000000000000000000000000)
 (.leaf 11135877120000000000000000000000000000000000109366476800000000000000000000000000000000001082143078000000000000000000000000000000000010968104960000000000000000000000000000000000110755840000000000000000000000000000000000001107558400000000000000000000001074255190000011160780800000000000000000000000000000000000111751987200000000000000000000104593200800001120403456000000000000000000001075865837000011204034560000000000000000000010575852720000112040345600000000000000000000000000000000001120403456000000000000000000000000000000000011204034560000000000000000000000000000000000112001024000000000000000000000000000000000001120403456000000000000000000000000000000000011204034560000000000000000000000000000000000))
 (.node 1 (.leaf 11204034560000000000000000000000000000000000112040345600000000000000000000000000000000001120403456000000000000000000000000000000000011204034560000000000000000000000000000000000112040345600000000000000000000000000000000001120403456000000000000000000000000000000000011204034560000000000000000000000000000000000112040345600000000000000000000000000000000001120403456000000000000000000000000000000000011204034560000000000000000000000000000000000112040345600000000000000000000000000000000001120403456000000000000000000000000000000000011204034560000000000000000000000000000000000112040345600000000000000000000000000000000001120403456000000000000000000000000000000000011204034560000000000000000000000000000000000)
 (.leaf 11204034560000000000000000000000000000000000112040345600000000000000000000000000000000001120403456000000000000000000000000000000000011204034560000000000000000000010658957160000112040345600000000000000000000106554326800001120403456000000000000000000000000000000000011204034561069889985000000000010450220100004110611498300000000000000000000104181763000001111273636000000000000000000000000000000000011158577740000000000000000000010230651930000110055873600000000000000000000000000000000001101728003000000000000000000001045148629000011141373490000000000000000000010543021870000111802514100000000000000000000103678578600001100584636000000000000000000000000000000000010850961200000000000000000000000000000000000)))
 (.node 2 (.node 1 (.leaf 10905190400000000000000000000000000000000000111280128000000000000000000000000000000000001116340224000000000000000000000000000000000011181752320000000000000000000000000000000000112040345600000000000000000000000000000000001118568448000000000000000000000000000000000011160780800000000000000000000000000000000000108788845600000000000000000000000000000000001093664768000000000000000000000000000000000010994319360000000000000000000000000000000000109681049600000000000000000000000000000000001077936128000000000000000000000000000000000011204034560000000000000000000000000000000000112040345600000000000000000000000000000000001120403456000000000000000000001054399580000011204034560000000000000000000010654717400000)
 (.leaf 11196170240000000000000000000010534315250000112001024000000000000000000000000000000000001086324736000000000000000000000000000000000011075584000000000000000000000000000000000000110991769600000000000000000000000000000000001109917696000000000000000000000984871405000011083448320000000000000000000000000000000000109681049600000000000000000000000000000000001090519040000000000000000000000000000000000010863247360000000000000000000000000000000000112040345600000000000000000000106726948000001120403456000000000000000000001047213196000011204034560000000000000000000000000000000000111817523200000000000000000000000000000000001119354880000000000000000000000000000000000011160780800000000000000000000010675796920000))
 (.node 1 (.leaf 11099176960000000000000000000010503320510000110865623300000000000000000000000000000000001115684864000000000000000000000000000000000011104738080000000000000000000000000000000000109051904000000000000000000000104865156900001111228416000000000000000000001033818839000011181752320000000000000000000010391655450000111961702400000000000000000000000000000000001120403456000000000000000000001064500354000011156848640000000000000000000010502308890000111122841600000000000000000000103848087800001111228416000000000000000000001040702083000011051991040000000000000000000010549649640000111201484800000000000000000000000000000000001120010240000000000000000000001045258374000011193548800000000000000000000010441795170000)
 (.leaf 11135877120000000000000000000010740084350000111673344000000000000000000000106205436100001117519872000000000000000000000000000000000011156848640000000000000000000000000000000000109366476800000000000000000000105099707700001117519872000000000000000000001074789761000011163402240000000000000000000010682160790000110913126400000000000000000000106346093400001118961664000000000000000000001056524353000011200102400000000000000000000010544125260000111724314000000000000000000000104651213500001071048913000000000000000000000000000000000010994319360000000000000000000010372559010000110834483200000000000000000000105251833000001110441984000000000000000000001042527159000011120148480000000000000000000000000000000000))))))
 (.node 16 (.node 8 (.node 4 (.node 2 (.node 1 (.leaf 11083448320000000000000000000010716911430000110677196800000000000000000000104695761600001117913088000000000000000000000000000000000011204034560000000000000000000010598918420000111122841600000000000000000000000000000000001103626240000000000000000000001055084381000011020533760000000000000000000010274355580000110677196800000000000000000000000000000000001106771968000000000000000000001068958640000010968104960000000000000000000000000000000000110048051200000000000000000000104072741900001109131264000000000000000000001038368466000011112284160000000000000000000010553433730000109681049600000000000000000000000000000000001103626240000000000000000000000000000000000010856075940000000000000000000000000000000000)
 (.leaf 11160780800000000000000000000000000000000000111201484800000000000000000000104034169500001109131264000000000000000000000000000000000011004805120000000000000000000000000000000000108632473600000000000000000000000000000000001084703386000000000000000000000000000000000011051991040000000000000000000000000000000000111411200000000000000000000000104993340900001117913088000000000000000000000000000000000011204034560000000000000000000000000000000000112040345600000000000000000000000000000000001115684864000000000000000000000000000000000011196170240000000000000000000010745205010000111568486400000000000000000000106546978400001096810496000000000000000000001057671663000011204034560000000000000000000000000000000000))
 (.node 1 (.leaf 11204034560000000000000000000000000000000000112040345600000000000000000000000000000000001120403456000000000000000000000000000000000011204034560000000000000000000000000000000000112040345600000000000000000000000000000000001120403456000000000000000000000000000000000011204034560000000000000000000000000000000000112040345600000000000000000000000000000000001120403456000000000000000000000000000000000011204034560000000000000000000000000000000000112040345600000000000000000000000000000000001120403456000000000000000000000000000000000011204034560000000000000000000000000000000000112040345600000000000000000000000000000000001120403456000000000000000000000000000000000011204034560000000000000000000000000000000000)
 (.leaf 11204034560000000000000000000000000000000000112040345600000000000000000000000000000000001120403456000000000000000000001044734005000011204034560000000000000000000010540805490000112040345600000000000000000000106232831000001120403456000000000000000000000000000000000011204034560000000000000000000010681803190000112040345600000000000000000000106774613400001097730517000000000000000000000000000000000010843683870000000000000000000000000000000000111043537800000000000000000000106680059900001063183570000000000000000000000000000000000010968104960000000000000000000000000000000000111201484800000000000000000000000000000000001112801280000000000000000000000000000000000011104419840000000000000000000000000000000000)))
 (.node 2 (.node 1 (.leaf 11104419840000000000000000000000000000000000111201484800000000000000000000000000000000001115684864000000000000000000000000000000000011156848640000000000000000000000000000000000111856844800000000000000000000000000000000001119617024000000000000000000000000000000000011204034560000000000000000000000000000000000112040345600000000000000000000000000000000001120403456000000000000000000000000000000000011189616640000000000000000000000000000000000111673344000000000000000000000000000000000001114898432000000000000000000000000000000000011020533760000000000000000000000000000000000108632473600000000000000000000000000000000001093664768000000000000000000000000000000000010968104960000000000000000000000000000000000)
 (.leaf 10994319360000000000000000000000000000000000110205337600000000000000000000000000000000001109917696000000000000000000001047584021000011051991040000000000000000000000000000000000109681049600000000000000000000000000000000001086324736000000000000000000000000000000000010779361280000000000000000000000000000000000110205337600000000000000000000000000000000001110441984000000000000000000001048721772000011135877120000000000000000000010671343580000111817523200000000000000000000108121102400001119354880000000000000000000001067442662000511204034560000000000000000000010434780320000112040345600000000000000000000000000000000001120403456000000000000000000000000000000000011204034560000000000000000000000000000000000))
 (.node 1 (.leaf 11204034560000000000000000000000000000000000112040345600000000000000000000000000000000001120403456000000000000000000001057553499000011196170240000000000000000000010423092730000111201484800000000000000000000106123815900001040967533000000000000000000000000000000000011083448320000000000000000000010508574060000109681049600000000000000000000000000000000001090519040000000000000000000000000000000000010994319360000000000105065973000000000000000109943193600000000000000000000106151224200001094852071000000000000000000001052675408000011020533760000000000000000000000000000000000110048051200000000000000000000000000000000001103626240000000000000000000000000000000000011000572540000000000000000000000000000000000)
 (.leaf 11075584000000000000000000000000000000000000111751987200000000000000000000105604884800001115684864000000000000000000000000000000000010936647680000000000000000000000000000000000110677196800000000000000000000000000000000001114112000000000000000000000000000000000000011167334400000000000000000000010499081530000111712665600000000000000000000000000000000001120403456000000000000000000000000000000000011204034560000000000000000000000000000000000111358771200000000000000000000103424241900001105199104000000000000000000001055849142000011204034560000000000000000000000000000000000111817523200000000000000000000105597149500001118175232000000000000000000000000000000000011167334400000000000000000000010777810950000))))
 (.node 4 (.node 2 (.node 1 (.leaf 11204034560000000000000000000000000000000000110519910400000000000000000000000000000000001109917696000000000000000000001058358519000011167334400000000000000000000010742145100000111712665600000000000000000000106616118200001113587712000000000000000000000000000000000011181752320000000000000000000010779462950000111791308800000000000000000000105977586600001114112000000000000000000000001061196966000011204034560000000000109442100110716590060000111935488000000000001094140822104510303800001102053376000000000000000000001072330493000010994319360000000000000000000010461821270000111280128000000000000000000000000000000000001118568448000000000000000000001072238567000011185684480000000000000000000010760323270000)
 (.leaf 11091312640000000000000000000010466651710000110205337600000000000000000000000000000000001106771968000000000000000000000000000000000011083448320000000000000000000010667500440000111411200000000000000000000000104681860900001116078080000000000000000000000000000000000011128012800000000000000000000000000000000000111607808000000000000000000000000000000000001115684864000000000000000000000000000000000011075584000000000000000000000000000000000000109681049600000000000000000000000000000000001093664768000000000000000000000000000000000010623390880000000000000000000000000000000000109681049600000000000000000000000000000000001071674116000000000000000000000000000000000011009112150000000000000000000000000000000000))
 (.node 1 (.leaf 11078769570000000000000000000000000000000000111418233300000000000000000000000000000000001118543754000000000000000000000000000000000011204034560000000000000000000000000000000000112040345600000000000000000000000000000000001120403456000000000000000000000000000000000011204034560000000000000000000000000000000000112040345600000000000000000000000000000000001120403456000000000000000000000000000000000011204034560000000000000000000000000000000000112040345600000000000000000000000000000000001120403456000000000000000000000000000000000011204034560000000000000000000000000000000000112040345600000000000000000000000000000000001120403456000000000000000000000000000000000011204034560000000000000000000000000000000000)
 (.leaf 11204034560000000000000000000000000000000000112040345600000000000000000000000000000000001120403456000000000000000000000000000000000011204034560000000000000000000000000000000000112040345600000000000000000000000000000000001120403456000000000000000000000000000000000011204034560000000000000000000000000000000000112040345600000000000000000000105182605500001120403456000000000000000000001062931568000011204034560000000000000000000010711811350000111489843200000000000000000000000000000000001116733440000000000000000000000000000000000011181752320000000000000000000000000000000000112040345600000000000000000000105691669300001120403456000000000000000000000000000000000011204034560000000000000000000000000000000000)))
 (.node 2 (.node 1 (.leaf 11204034560000000000000000000000000000000000112040345600000000000000000000000000000000001120403456000000000000000000000000000000000011193548800000000000000000000000000000000000111673344000000000000000000000000000000000001115684864000000000000000000000000000000000011120148480000000000000000000000000000000000110913126400000000000000000000000000000000001102053376000000000000000000000000000000000010905190400000000000000000000000000000000000110362624000000000000000000000000000000000001106771968000000000000000000000000000000000011120148480000000000000000000000000000000000111489843200000000000000000000000000000000001120403456000000000000000000000000000000000011204034560000000000000000000000000000000000)
 (.leaf 11189616640000000000000000000000000000000000111712665600000000000000000000000000000000001119617024000000000000000000001035735630000011193548800000000000000000000000000000000000112040345600000000000000000000104309004500001120403456000000000000000000000000000000000011204034560000000000000000000010440857620000112040345600000000000000000000104124597000001120403456000000000000000000001045798592000011204034560000000000000000000010342919700000112040345600000000000000000000000000000000001120403456000000000000000000000000000000000011179130880000000000000000000010779743610000111044198400000000000000000000107161671600001110441984000000000000000000000000000000000010905190400000000000000000000000000000000000))
 (.node 1 (.leaf 11067719680000000000000000000000000000000000112040345600000000000000000000000000000000001120403456000000000000000000000000000000000011204034560000000000000000000000000000000000111896166400000000000000000000000000000000001112801280000000000010300539541049962731000011204034560000000000103805333000000000000000112040345600000000001060496212108446394100001109655552000000000010381875481025424425000011128012800000000000108381046010543737940000111568486400000000001080893951106624140100001111228416000000000010694812501059033662000011075584000000000000000000000000000000000000109366476800000000000000000000000000000000001077936128000000000000000000000000000000000010089817700000000000000000000000000000000000)
 (.leaf 10968104960000000000000000000010495246720000111489843200000000000000000000000000000000001116078080000000000000000000001047345996000011181752320000000000000000000010674068980000111896166400000000000000000000106470952100001117519872000000000000000000001057486911000011204034560000000000000000000010519285500000111044198400000000000000000000105584342800001114112000000000000000000000001068353514000011179130880000000000000000000010656500170000111568486400000000000000000000104985050700001114112000000000000000000000001065376756000011160780800000000000000000000010607661920000112040345600000000000000000000104065146500001120403456000000000000000000000000000000000011204034560000000000000000000000000000000000)))))
 (.node 8 (.node 4 (.node 2 (.node 1 (.leaf 11196170240000000000000000000010495432110000112040345600000000000000000000106477516400001120403456000000000000000000000000000000000011200102400000000000000000000010750469410000112040345600000000000000000000103467913000001120403456000000000000000000000000000000000010779361280000000000000000000010498322840000107793612800000000000000000000105259211000001117519872000000000000000000000000000000000011104419840000000000000000000000000000000000111634022400000000000000000000000000000000001120403456000000000000000000001069023493000011204034560000000000000000000010616384190000112040345600000000000000000000108306493500001120403456000000000000000000001065416084000011163402240000000000000000000010741678210000)
 (.leaf 10936647680000000000000000000010724604200000109943193600000000000000000000106877523700001120403456000000000000000000000000000000000011204034560000000000000000000010354005750000112001024000000000000000000000106411895200001120403456000000000000000000000000000000000011204034560000000000000000000000000000000000112040345600000000000000000000104608527000001120403456000000000000000000001065548707000011204034560000000000000000000010349835970000112040345600000000000000000000107016141200001120403456000000000000000000001050567042000011204034560000000000000000000000000000000000112040345600000000000000000000000000000000001120403456000000000000000000000000000000000011204034560000000000000000000000000000000000))
 (.node 1 (.leaf 11204034560000000000000000000000000000000000112040345600000000000000000000000000000000001105199104000000000000000000000000000000000011102137090000000000000000000010728021560000112040345600000000000000000000000000000000001120403456000000000000000000000000000000000011204034560000000000000000000000000000000000112040345600000000000000000000000000000000001120403456000000000000000000000000000000000011204034560000000000000000000000000000000000112040345600000000000000000000000000000000001120403456000000000000000000000000000000000011204034560000000000000000000000000000000000112040345600000000000000000000000000000000001120403456000000000000000000000000000000000011204034560000000000000000000000000000000000)
 (.leaf 11204034560000000000000000000000000000000000112040345600000000000000000000000000000000001120403456000000000000000000000000000000000011204034560000000000000000000000000000000000112040345600000000000000000000000000000000001120403456000000000000000000000000000000000011204034560000000000000000000000000000000000112040345600000000000000000000000000000000001120403456000000000000000000000000000000000011204034560000000000000000000000000000000000112040345600000000000000000000000000000000001120403456000000000000000000000000000000000011204034560000000000000000000000000000000000112040345600000000000000000000000000000000001120403456000000000000000000000000000000000011204034560000000000000000000000000000000000)))
 (.node 2 (.node 1 (.leaf 11204034560000000000000000000000000000000000112040345600000000000000000000000000000000001120403456000000000000000000000000000000000011204034560000000000000000000000000000000000112040345600000000000000000000000000000000001112790611000000000000000000000000000000000011156371010000000000000000000000000000000000110391900200000000000000000000000000000000001077936128000000000000000000000000000000000011075584000000000000000000000000000000000000110834483200000000000000000000000000000000001116733440000000000000000000000000000000000011204034560000000000000000000000000000000000112040345600000000000000000000000000000000001120403456000000000000000000000000000000000011204034560000000000000000000010533702510000)
 (.leaf 11204034560000000000000000000010601629030000111607808000000000000000000000000000000000001099431936000000000000000000000000000000000011020533760000000000000000000000000000000000109681049600000000000000000000105382918700001102053376000000000000000000000000000000000010994319360000000000000000000010524796750000110205337600000000000000000000105404269800001118961664000000000000000000001059894542000011204034560000000000000000000000000000000000112040345600000000000000000000000000000000001120403456000000000000000000000000000000000011204034560000000000000000000000000000000000112040345600000000000000000000104989788300001120403456000000000000000000000000000000000011204034560000000000000000000000000000000000))
 (.node 1 (.leaf 11204034560000000000000000000010399319230000112040345600000000000000000000106084233700001120403456000000000000000000001069284425000611204034560000000000000000000010154855010007112040345600000000000000000000105737372800081120403456000000000000000000001063009362000011204034560000000000000000000000000000000000112040345600000000000000000000000000000000001120403456000000000000000000000000000000000011204034560000000000000000000000000000000000112040345600000000000000000000105255073200001117519872000000000000000000001081626680000010968104960000000000000000000010575131810000110205337600000000000000000000000000000000001077936128000000000000000000000000000000000011204034560000000000000000000000000000000000)
 (.leaf 11204034560000000000000000000000000000000000112040345600000000001026322701000000000000001120403456000000000000000000000000000000000011204034560000000000000000000000000000000000111634022400000000000000000000000000000000001116078080000000000000000000000000000000000011189616640000000000107471700010558787000000111856844800000000001053035384106933075700001120010240000000000000000000001055743769000011128012800000000000000000000010558528670000106901509500000000000000000000000000000000001105199104000000000000000000000000000000000011156848640000000000000000000000000000000000111712665600000000001038415718000000000000001118175232000000000010646972271073247748000011181752320000000000107446408310574010590000))))
 (.node 4 (.node 2 (.node 1 (.leaf 11091312640000000000103581189400000000000000111201484800000000000000000000000000000000001112014848000000000000000000000000000000000011075584000000000000000000000000000000000000109681049600000000000000000000000000000000001074268419000000000000000000000000000000000010711692060000000000000000000000000000000000110834483200000000000000000000000000000000001116078080000000000000000000000000000000000011204034560000000000000000000010466424910000112040345600000000000000000000000000000000001117913088000000000000000000001050206231000011135877120000000000000000000010628180440000110755840000000000000000000000104125829900001080848275000000000000000000001041976706000010779361280000000000000000000000000000000000)
 (.leaf 10614295960000000000000000000000000000000000108258515700000000000000000000000000000000001066698078000000000000000000001041389941000010779361280000000000000000000000000000000000109681049600000000000000000000107162075100001108344832000000000000000000001058765580000011156848640000000000000000000010650963810000111411200000000000000000000000104261279200001116078080000000000000000000001053316365000011004805120000000000000000000010475298130000109051904000000000000000000000000000000000001114112000000000000000000000001055202888000011141120000000000000000000000010710944430000111607808000000000000000000000105735132100001118175232000000000000000000001067501718000011189616640000000000000000000000000000000000))
 (.node 1 (.leaf 11148984320000000000000000000010745163240000111280128000000000000000000000107579319900001118175232000000000000000000001066835263000011181752320000000000000000000010533322120000111817523200000000000000000000106896156800001117913088000000000000000000001079313354000011179130880000000000000000000010614149340000111751987200000000000000000000107199291600001117913088000000000000000000001083926471000011181752320000000000000000000010741728700000111817523200000000000000000000104800930700001114898432000000000000000000001072727032000011181752320000000000000000000010654838120000111607808000000000000000000000000000000000001116078080000000000000000000001024883943000011020533760000000000000000000010863973140000)
 (.leaf 10936647680000000000000000000000000000000000108233572200000000000000000000000000000000001105093197000000000000000000001058768785000011170193470000000000000000000010561352620000111965968800000000000000000000105972168300001120403456000000000000000000000000000000000011204034560000000000000000000000000000000000112040345600000000000000000000000000000000001120403456000000000000000000000000000000000011204034560000000000000000000000000000000000112040345600000000000000000000000000000000001120403456000000000000000000000000000000000011204034560000000000000000000000000000000000112040345600000000000000000000000000000000001120403456000000000000000000000000000000000011204034560000000000000000000000000000000000)))
 (.node 2 (.node 1 (.leaf 11204034560000000000000000000000000000000000112040345600000000000000000000000000000000001120403456000000000000000000000000000000000011204034560000000000000000000000000000000000112040345600000000000000000000000000000000001120403456000000000000000000000000000000000011204034560000000000000000000000000000000000112040345600000000000000000000000000000000001120403456000000000000000000000000000000000011204034560000000000000000000000000000000000112040345600000000000000000000000000000000001120403456000000000000000000000000000000000011204034560000000000000000000000000000000000112040345600000000000000000000000000000000001120403456000000000000000000000000000000000011204034560000000000000000000010510043290000)
 (.leaf 11204034560000000000000000000010545723760000112040345600000000000000000000000000000000001107430185000000000000000000000000000000000011013399770000000000000000000000000000000000109919957200000000000000000000000000000000001087641349000000000000000000000000000000000010695960900000000000000000000010429887270000110519910400000000000000000000000000000000001120403456000000000000000000001059209386000011204034560000000000000000000000000000000000112040345600000000000000000000000000000000001119354880000000000000000000000000000000000010779361280000000000000000000000000000000000109366476800000000000000000000000000000000001067558329000000000000000000000000000000000010863247360000000000000000000000000000000000))
 (.node 1 (.leaf 11020533760000000000000000000000000000000000110913126400000000000000000000000000000000001114898432000000000000000000001049817938000011171266560000000000000000000010434875440000112040345600000000000000000000105024296900001120403456000000000000000000000000000000000011204034560000000000000000000010537015370000112040345600000000000000000000106759653500001120403456000000000000000000001057703505000011204034560000000000000000000010368287440000112040345600000000000000000000103078639400001120403456000000000000000000001058446893000011204034560000000000000000000010609593310009112040345600000000000000000000105983118500101120403456000000000000000000001064005446000011204034560000000000000000000010812539820000)
 (.leaf 11167334400000000000000000000000000000000000110048051200000000000000000000103251135700001090519040000000000000000000000000000000000010905190400000000000000000000000000000000000111044198400000000000000000000000000000000001114112000000000000000000000000000000000000010994319360000000000102855071500000000000000110677196800000000000000000000101877921800001107558400000000000000000000000000000000000011075584000000000000000000000000000000000000108632473600000000000000000000000000000000001073176012000000000000000000000000000000000010994319360000000000105993417500000000000000111122841600000000001093799510000000000000001112014848000000000010952583940000000000000011120148480000000000108595626600000000000000))))))))
 (.node 64 (.node 32 (.node 16 (.node 8 (.node 4 (.node 2 (.node 1 (.leaf 11112284160000000000000000000000000000000000110755840000000000000000000000000000000000001093664768000000000000000000000000000000000010913245980000000000000000000010526017410000110205337600000000000000000000106226101900001107558400000000000000000000001057072480000011104419840000000000000000000010573954900000111201484800000000000000000000000000000000001115684864000000000000000000000000000000000011185684480000000000000000000000000000000000111817523200000000000000000000105128406500001116078080000000000000000000001045428914000011083448320000000000000000000010262244580000110519910400000000000000000000000000000000001112014848000000000000000000000000000000000011120148480000000000000000000000000000000000)
 (.leaf 10936647680000000000000000000000000000000000109943193600000000000000000000000000000000001099431936000000000000000000000000000000000010968104960000000000000000000000000000000000107675341800000000000000000000000000000000001093664768000000000000000000001041905128000010936647680000000000000000000010444482860000109366476800000000000000000000000000000000001093664768000000000000000000000000000000000011075584000000000000000000000000000000000000110205337600000000000000000000106765930500001075585221000000000000000000001043927784000010856616160000000000000000000010561876680000108362199000000000000000000000105783904700001083742869000000000000000000000000000000000010727674030000000000000000000000000000000000))
 (.node 1 (.leaf 10668735670000000000000000000000000000000000105547781100000000000000000000000000000000001067381330000000000000000000000000000000000010831512420000000000000000000000000000000000109331727000000000000000000000106039825700001103233811000000000000000000001017931459000011152014180000000000000000000010841933970000112040345600000000000000000000000000000000001120403456000000000000000000000000000000000011204034560000000000000000000000000000000000112040345600000000000000000000000000000000001120403456000000000000000000000000000000000011204034560000000000000000000000000000000000112040345600000000000000000000000000000000001120403456000000000000000000000000000000000011204034560000000000000000000000000000000000)
 (.leaf 11204034560000000000000000000000000000000000112040345600000000000000000000000000000000001120403456000000000000000000000000000000000011204034560000000000000000000000000000000000112040345600000000000000000000000000000000001120403456000000000000000000000000000000000011204034560000000000000000000010674955640000112040345600000000000000000000108396461700001120403456000000000000000000001040586026000011204034560000000000000000000010324569490000112040345600000000000000000000103826793800001120403456000000000000000000000000000000000011120101290000000000000000000000000000000000110729442100000000000000000000000000000000001087297794000000000000000000001058457704000010957925380000000000000000000010608613470000)))
 (.node 2 (.node 1 (.leaf 10994319360000000000000000000000000000000000111122841600000000000000000000000000000000001120403456000000000000000000001088620807000011204034560000000000000000000010852842750000111961702400000000000000000000105918397200001077936128000000000000000000000000000000000010779361280000000000000000000000000000000000109051904000000000000000000000000000000000001091453091000000000000000000000000000000000010905190400000000000000000000000000000000000110048051200000000000000000000103978086400001111228416000000000000000000001070254681000011181752320000000000000000000000000000000000112040345600000000000000000000105199719700001120403456000000000000000000001067534814000011204034560000000000000000000010586577690000)
 (.leaf 11204034560000000000000000000000000000000000112040345600000000000000000000000000000000001120403456000000000000000000001050373969000011204034560000000000000000000000000000000000112040345600000000000000000000105883149100001120403456000000000000000000001080602846001111204034560000000000000000000000000000000012112040345600000000000000000000106293987200131120403456000000000000000000001076548287000011204034560000000000000000000010895475720000112040345600000000000000000000107969206100141054680793000000000000000000000000000000000011020533760000000000000000000010493056770000111791308800000000000000000000103745909700001117913088000000000000000000000000000000000011099176960000000000000000000010338022920000))
 (.node 1 (.leaf 11051991040000000000000000000000000000000000110677196800000000000000000000000000000000001112014848000000000010419120901048731033000010905190400000000000000000000000000000000000100898177000000000000000000000000000000000001103626240000000000010831863481055040007000011204034560000000000109979794110604212370000112040345600000000001093338975105576130300001120403456000000000000000000000000000000000011204034560000000000000000000010655054100000112040345600000000000000000000105311052300001120403456000000000000000000001057219199000011204034560000000000000000000000000000000000112040345600000000000000000000103210200800001120403456000000000000000000000000000000000011179130880000000000107373846910431278380000)
 (.leaf 10464273080000000000000000000000000000000000109398007500000000000000000000103253898300001101865628000000000000000000001051559622000011107707120000000000000000000010560154280000111158747500000000000000000000106735473900001112449824000000000000000000001061535552000011062279670000000000000000000010685269760000111411200000000000000000000000104724955500001118175232000000000000000000001076672806000011189616640000000000000000000010752099260000111607808000000000000000000000106452638600001116078080000000000000000000001072374765000011181752320000000000000000000010841442750000111712665600000000000000000000106476680700001116733440000000000000000000001054508413000011075584000000000000000000000010402177870000))))
 (.node 4 (.node 2 (.node 1 (.leaf 10994319360000000000000000000010610846020000112040345600000000000000000000106584390400001118961664000000000000000000001060331534000011204034560000000000000000000000000000000000112040345600000000000000000000000000000000001117913088000000000000000000001043825751000011004805120000000000000000000010302547810000110048051200000000000000000000000000000000001115684864000000000000000000000000000000000011160780800000000000000000000000000000000000111607808000000000000000000000000000000000001116078080000000000000000000000000000000000011128012800000000000000000000000000000000000109943193600000000000000000000000000000000001106771968000000000000000000000000000000000011160780800000000000000000000000000000000000)
 (.leaf 11160780800000000000000000000000000000000000111201484800000000000000000000000000000000001099431936000000000000000000000000000000000011156848640000000000000000000000000000000000111673344000000000000000000000000000000000001115684864000000000000000000000000000000000011120148480000000000000000000010238880160000110142449200000000000000000000103846380400001107817189000000000000000000001067884474000011204034560000000000000000000000000000000000112040345600000000000000000000000000000000001120403456000000000000000000000000000000000011204034560000000000000000000000000000000000112040345600000000000000000000000000000000001120403456000000000000000000000000000000000011204034560000000000000000000000000000000000))
 (.node 1 (.leaf 11204034560000000000000000000000000000000000112040345600000000000000000000000000000000001120403456000000000000000000000000000000000011204034560000000000000000000000000000000000112040345600000000000000000000000000000000001120403456000000000000000000000000000000000011204034560000000000000000000000000000000000112040345600000000000000000000105972564000001120403456000000000000000000000000000000000011204034560000000000000000000010449057820000112040345600000000000000000000105103891700001120403456000000000000000000000000000000000011176638150000000000000000000000000000000000109876692900000000000000000000000000000000001093664768000000000010620833370000000000000011148984320000000000000000000010395968780000)
 (.leaf 11204034560000000000000000000010638552700000112040345600000000000000000000106645833500001120403456000000000000000000001067522992000010779361280000000000000000000000000000000000106958250000000000000000000000000000000000001077936128000000000000000000000000000000000010994319360000000000000000000000000000000000109943193600000000000000000000000000000000001099431936000000000000000000000000000000000010994319360000000000000000000000000000000000110834483200000000000000000000000000000000001109917696000000000000000000001053974590000011083448320000000000000000000000000000000000111358771210469014330000000000000000000000001120403456109929751000000000001059842237000011204034560000000000000000000010680528250000)))
 (.node 2 (.node 1 (.leaf 11204034561063270274000000000000000000000000112040345600000000000000000000000000000000001120403456000000000000000000001090882135000011204034560000000000000000000010603083890000112040345600000000000000000000000000000000001120403456106668011800000000001091200408000011204034560000000000000000000010841648100000112040345600000000000000000000108568129300151120403456000000000000000000001085567602001611204034560000000000000000000010490602730000112040345600000000000000000000106585948600001120403456000000000000000000000000000000000011204034560000000000000000000010593778960000111856844800000000000000000000106586987700001109917696000000000000000000001060823538000011075584000000000000000000000010457857670000)
 (.leaf 11091312640000000000000000000000000000000000111411200000000000000000000000000000000000001103626240000000000000000000000000000000000010994319360000000000000000000010491753170000110677196800000000000000000000106649478100001110441984000000000000000000001068355554000011075584000000000000000000000010594907040000110755840000000000000000000000107488626300001099431936000000000000000000001048881911000010994319360000000000000000000010738309560000108632473600000000000000000000105731128400001102053376000000000000000000001064912484000011120148480000000000000000000010680879760000104433089500000000000000000000000000000000001093664768000000000000000000000000000000000010863247360000000000000000000000000000000000))
 (.node 1 (.leaf 11091312640000000000104201946410669357160000111607808000000000001075895599106922094300001117519872000000000010897919571040758157000011167334400000000000108720386200000000000000111280128000000000001100161745103158988900001100480512000000000010879684840000000000000011033972830000000000000000000010754021270000112040345600000000001068313556107081903300001120403456000000000000000000001088633997000011204034560000000000000000000010874521510000111961702400000000000000000000107701875500001112801280000000000000000000001060640762000011160780800000000000000000000010633890530000110022193300000000000000000000106177525700001115679464000000000000000000001070611799000011091312640000000000000000000010688409890000)
 (.leaf 11004805120000000000107667070610837346800000111914065600000000000000000000108986675500001120402722000000000000000000001093096195000011153794660000000000000000000010831552480000108632473600000000000000000000107252111200001105199104000000000000000000001065053932000011128012800000000000000000000010738216480000112040345600000000000000000000106657318900001120403456000000000000000000001057957709000011067719680000000000000000000010417825040000109051904000000000000000000000104144349300001096810496000000000000000000001051308261000011204034560000000000000000000010615120510000112040345600000000000000000000000000000000001120403456000000000000000000000000000000000011204034560000000000000000000000000000000000)))))
 (.node 8 (.node 4 (.node 2 (.node 1 (.leaf 11204034560000000000000000000000000000000000112040345600000000000000000000000000000000001099431936000000000000000000001063075092000011204034560000000000000000000000000000000000112040345600000000000000000000000000000000001120403456000000000000000000001027206000000010936647680000000000000000000000000000000000109943193600000000000000000000000000000000001113587712000000000000000000001028886890000011204034560000000000000000000010351258570000112040345600000000000000000000000000000000001120403456000000000000000000001041941950000011204034560000000000000000000000000000000000110834483200000000000000000000102439638600001120403456000000000000000000000000000000000011204034560000000000000000000010295906340000)
 (.leaf 11204034560000000000000000000010502911900000112040345600000000000000000000000000000000001120403456000000000000000000001041138906000011185684480000000000000000000000000000000000107793612800000000000000000000000000000000001098283746000000000000000000001064227135000011204034560000000000000000000010739225490000112040345600000000000000000000103030240700001120403456000000000000000000000000000000000011204034560000000000000000000000000000000000112040345600000000000000000000000000000000001120403456000000000000000000000000000000000011204034560000000000000000000000000000000000112040345600000000000000000000000000000000001120403456000000000000000000000000000000000011204034560000000000000000000000000000000000))
 (.node 1 (.leaf 11204034560000000000000000000000000000000000112040345600000000000000000000000000000000001120403456000000000000000000000000000000000011204034560000000000000000000000000000000000112040345600000000000000000000000000000000001120403456000000000000000000000000000000000011204034560000000000000000000000000000000000112040345600000000000000000000000000000000001120403456000000000000000000000000000000000011204034560000000000000000000000000000000000112040345600000000000000000000000000000000001120403456000000000000000000000000000000000011204034560000000000000000000000000000000000112040345600000000000000000000000000000000001120403456000000000000000000000000000000000011204034560000000000000000000000000000000000)
 (.leaf 11204034560000000000000000000000000000000000112040345600000000000000000000000000000000001120403456000000000000000000000000000000000011204034560000000000000000000000000000000000112040345600000000000000000000000000000000001120403456000000000000000000000000000000000011204034560000000000000000000000000000000000112040345600000000000000000000000000000000001120403456000000000000000000000000000000000011204034560000000000000000000010318736810000112040345600000000000000000000000000000000001120403456000000000000000000000000000000000011204034560000000000000000000000000000000000112040345600000000000000000000000000000000001120403456000000000000000000000000000000000011204034560000000000000000000000000000000000)))
 (.node 2 (.node 1 (.leaf 11204034560000000000000000000000000000000000112040345600000000000000000000000000000000001091865265000000000000000000000000000000000011036262400000000000106751915500000000000000111411200000000000001086542420103484909300001120010240000000000000000000001057404697000011196170240000000000000000000010518269780000109051904000000000000000000000106034432200001077936128000000000000000000000000000000000011167334400000000000000000000010581164010000111751987200000000000000000000107512766600001112014848000000000000000000001066524236000010936647680000000000000000000000000000000000109051904000000000000000000000105257850800001090519040000000000000000000001034446206000010779361280000000000000000000000000000000000)
 (.leaf 10968104960000000000000000000000000000000000109366476800000000000000000000000000000000001086324736000000000000000000001039324023000010779361280000000000000000000000000000000000112040345600000000000000000000104228370100001120403456000000000000000000001039941209000011204034560000000000000000000010654291230000112040345600000000000000000000000000000000001120403456000000000000000000001063454427000011204034560000000000000000000010696352260000112040345610505022590000000000108086380800001120403456000000000000000000000000000000000011204034560000000000000000000010453441020000112040345600000000000000000000107379184500001120403456000000000000000000001075786448000011204034560000000000000000000010716597140017))
 (.node 1 (.leaf 11204034560000000000000000000010654867400000112040345600000000000000000000106762044000001120403456104733193600000000001065018269000011204034561075143405000000000010656872420000112040345610602996000000000000105804110600001120403456104369732000000000001077344779000011204034560000000000000000000010768584100000112040345600000000000000000000103628654400001120403456000000000000000000000000000000000011204034560000000000000000000010517710200000112040345600000000000000000000105618238700001120403456109139446710269132591070667733001811204034561101869520105397826410841091260019112040345610971863921028201749106494070300001120403456000000000000000000001056786312000011204034560000000000000000000010665162920000)
 (.leaf 11204034560000000000000000000010397360590000112040345600000000000000000000105055318000001106771968000000000000000000001045197236000010936647680000000000000000000000000000000000110026890900000000000000000000000000000000001097541039000000000000000000000000000000000011020533760000000000104171747410633287660000112040345610696067521062903742109687119200001120403456106877317610655276991097489097000011204034561051348468107081336110955536070000112040345610537536171061578342109780766700001119617024107064006110756686871098759840000011175198721100386713107806699010761833590000111411200010905098611036013221108276510100001109917696108210011100000000001065895119000011036262401064808779000000000010588073060000))))
 (.node 4 (.node 2 (.node 1 (.leaf 10863247360000000000000000000000000000000000109051904000000000001041683920000000000000001099431936000000000010425630460000000000000011075584000000000000106576593610382219850000111201484800000000001072989366000000000000001112014848000000000010693185110000000000000011128012800000000000107963733800000000000000111607808000000000001079636918000000000000001077936128000000000010542466990000000000000011174027460000000000000000000010655917040000112040345600000000001094563293106624664000001120403456000000000011158323331068163045000011204034560000000000110145699810836588910000112040345600000000000000000000109181805000001120403456000000000000000000001084390003000011193548800000000000000000000010855553350000)
 (.leaf 11160780800000000000000000000010783846540000110834483200000000000000000000108049068200001108344832000000000000000000001085843330000011163402240000000000000000000010732340090000111896166400000000000000000000104914035600001120403456000000000000000000001079372470000011204034560000000000000000000010799838040000111846334200000000000000000000106537659700001099431936000000000000000000001064266611000011193548800000000000000000000010617422900000112040345600000000000000000000107733075700001119354880000000000000000000001063305858000011200102400000000000000000000010783495490000111935488000000000000000000000107436445000001099431936000000000000000000000000000000000011193548800000000000000000000010886141010000))
 (.node 1 (.leaf 11204034560000000000000000000010967811700000112040345600000000001082026413109335876300001109948393000000000000000000001078285966000011083448320000000000000000000010679649390000111935488000000000000000000000107502298300001119354880000000000000000000001079701171000011160780800000000000000000000010875449840000111358771200000000000000000000108948682900001120403456000000000000000000001096105477000011204034560000000000000000000010858229200000111961702400000000000000000000107082175500201116733440000000000000000000001057356215000011148984320000000000000000000000000000000000108422758400000000000000000000106035591200001116078080000000000000000000001075366418002111175198720000000000000000000010346812980022)
 (.leaf 11120148480000000000000000000000000000000000111201484800000000000000000000104904058900001103626240000000000000000000000000000000000010994319360000000000000000000010634572540000112040345600000000000000000000106218930700001120403456000000000000000000001041972167000011181752320000000000000000000010667124830000112040345600000000000000000000105838041900001120403456000000000000000000000955342160000011004805120000000000000000000010397929800000110755840000000000000000000000000000000000001108344832000000000000000000000000000000000011141120000000000000000000000000000000000000111607808000000000000000000000106984287100001117913088000000000000000000001060975341000011167334400000000000000000000010725202080000)))
 (.node 2 (.node 1 (.leaf 10952011410000000000000000000010079144480000112040345600000000000000000000106357270600001120403456000000000000000000001061687609000011204034560000000000000000000000000000000000112040345600000000000000000000000000000000001120403456000000000000000000000000000000000011204034560000000000000000000000000000000000112040345600000000000000000000000000000000001120403456000000000000000000000000000000000011204034560000000000000000000000000000000000112040345600000000000000000000000000000000001120403456000000000000000000000000000000000011204034560000000000000000000000000000000000112040345600000000000000000000000000000000001120403456000000000000000000000000000000000011204034560000000000000000000000000000000000)
 (.leaf 11204034560000000000000000000000000000000000112040345600000000000000000000000000000000001120403456000000000000000000000000000000000011204034560000000000000000000000000000000000112040345600000000000000000000000000000000001120403456000000000000000000000000000000000011204034560000000000000000000000000000000000112040345600000000000000000000000000000000001120403456000000000000000000000000000000000011204034560000000000000000000000000000000000112040345600000000000000000000000000000000001120403456000000000000000000000000000000000011204034560000000000000000000000000000000000112040345600000000000000000000000000000000001120403456000000000000000000000000000000000011204034560000000000000000000000000000000000))
 (.node 1 (.leaf 11204034560000000000000000000000000000000000112040345600000000000000000000000000000000001120403456000000000000000000000000000000000011204034560000000000000000000000000000000000112040345600000000000000000000000000000000001120403456000000000000000000000000000000000011204034560000000000000000000000000000000000112040345600000000000000000000000000000000001120403456000000000000000000000000000000000011204034560000000000000000000010185288050000112040345600000000000000000000000000000000001120403456000000000000000000000000000000000011204034560000000000000000000000000000000000112040345600000000000000000000000000000000001120403456000000000000000000001035604376000011204034560000000000000000000000000000000000)
 (.leaf 11204034560000000000000000000000000000000000112040345600000000000000000000105233054100001077936128000000000010516260981035334672000011204034560000000000104163694310603139060000112040345600000000000000000000102366337500001114898432000000000000000000001055351689000011163402240000000000000000000000000000000000111607808000000000000000000000105245630700001116078080000000000000000000001047715621000011135877120000000000108275412510448872900000110677196800000000001094380736106096218400001099431936000000000000000000001030518013000011051991040000000000000000000010485825980000111201484800000000000000000000105666797300001075745527000000000000000000000000000000000010936647680000000000000000000010562664410000))))))
 (.node 16 (.node 8 (.node 4 (.node 2 (.node 1 (.leaf 11083448320000000000000000000000000000000000111568486400000000000000000000102602903300001120403456000000000000000000000000000000000011204034560000000000000000000000000000000000112040345610765740990000000000108356063100001120403456000000000000000000001077685026000011204034560000000000000000000010852257650000112040345600000000000000000000106063832800001120403456000000000000000000001059078946000011204034560000000000000000000010582919240000112040345600000000000000000000106033621500001120403456000000000000000000001077143077000011204034560000000000000000000010748839650000112040345600000000000000000000107961359600001120403456000000000000000000001068370588000011204034561095452616110097150810903206420023)
 (.leaf 11204034560000000000000000000010603955590000112040345600000000000000000000107169799100001120403456000000000000000000001077633288000011204034560000000000000000000010406770530000112040345610816391910000000000102917655000001117519872108909606610606589511041009365000011189616641087412220106603604910328069760000112040345610893511881025275802000000000000001119617024109433915410678161111036563682000011204034561093048548105957682110837402650000112040345611014049661072062425108426558100001120403456110896533210590919591067357470000011204034561107635597106646135110695355400000112040345611057101881062642018106565505300001120403456109457511100000000001058190059000011160780800000000000105364607510746387620000))
 (.node 1 (.leaf 11120148480000000000104911287110781353230024111201484800000000001048421650104961888600251107558400000000000010513643731063262191000011075584000000000000000000000010334765130000110755840000000000001046213768103462171500001107558400000000000000000000000000000000000011004805120000000000000000000009843356400000110171657300000000000000000000106863815800001093664768000000000010915393281073854977000011204034560000000000111657912910617238190000112040345600000000001101066876108574984600001120010240000000000000000000001071556958000011148984320000000000000000000000000000000000109750706500000000000000000000104050011800001118568448000000000000000000001087320620000011204034560000000000000000000010687116330000)
 (.leaf 11204034560000000000000000000010843377700000112040345600000000000000000000108647631300001118961664000000000000000000001085906628000011204034560000000000000000000010785420840000112040345600000000000000000000108516238500001120403456000000000000000000001083223133000010863247360000000000000000000010665463910000111607808000000000000000000000109256654200001118175232000000000000000000001101612407000011171266560000000000109084808311002412870000111411200000000000000000000000107522909400001116733440000000000000000000001078762547000011179130880000000000000000000010867620970000112040345600000000000000000000108933179200001120403456000000000000000000001100194212000011204034560000000000000000000010903868560000)))
 (.node 2 (.node 1 (.leaf 11204034560000000000000000000010816703490000112040345600000000000000000000108384539000001120403456000000000000000000001059017140000010968104960000000000000000000000000000000000111896166400000000000000000000107783279400001120403456000000000000000000001084225680000011204034560000000000000000000000000000000000112040345600000000000000000000107670631800001117126656000000000000000000001085429663000011204034560000000000000000000010430134230000112040345600000000000000000000101816637100001116340224000000000000000000001093789367000011104419840000000000000000000010794976030000112040345600000000000000000000104033398000001120403456000000000000000000001083127366000011204034560000000000000000000010846376260000)
 (.leaf 11189616640000000000000000000010574729730000112001024000000000000000000000000000000000001120403456000000000000000000000000000000000011204034560000000000000000000010770499010000112040345600000000000000000000109309466100001120403456000000000000000000001086966390000011204034561095881618000000000010673058120000112040345600000000000000000000000000000000001120403456000000000000000000000000000000000011204034560000000000000000000000000000000000112040345600000000000000000000000000000000001120403456000000000000000000000000000000000011204034560000000000000000000000000000000000112040345600000000000000000000000000000000001120403456000000000000000000000000000000000011204034560000000000000000000000000000000000))
 (.node 1 (.leaf 11204034560000000000000000000000000000000000112040345600000000000000000000000000000000001120403456000000000000000000000000000000000011204034560000000000000000000000000000000000112040345600000000000000000000000000000000001120403456000000000000000000000000000000000011204034560000000000000000000000000000000000112040345600000000000000000000000000000000001120403456000000000000000000000000000000000011204034560000000000000000000000000000000000112040345600000000000000000000000000000000001120403456000000000000000000000000000000000011204034560000000000000000000000000000000000112040345600000000000000000000000000000000001120403456000000000000000000000000000000000011204034560000000000000000000000000000000000)
 (.leaf 11204034560000000000000000000000000000000000112040345600000000000000000000000000000000001120403456000000000000000000000000000000000011204034560000000000000000000010393915830000112040345600000000000000000000105940632000001120403456000000000000000000000000000000000011204034560000000000000000000010497855890000112040345600000000000000000000104302140000001120403456000000000000000000000000000000000011020533760000000000103324833510331402350000112040345600000000000000000000105419301700001120403456000000000000000000000000000000000011204034560000000000000000000000000000000000112040345600000000000000000000105793512500001120403456000000000000000000001078470578000011204034560000000000000000000010599753770000))))
 (.node 4 (.node 2 (.node 1 (.leaf 11204034560000000000000000000010532591160000109366476800000000000000000000103406430300001119354880000000000000000000001060143164000010936647680000000000000000000010409943940000107793612800000000000000000000106111808600001109131264000000000000000000001084131963000011171266560000000000000000000010834383660000111751987200000000000000000000107472731000001116078080000000000000000000001068513691000011160780800000000000000000000010739814150000111817523200000000000000000000106860474300001120403456000000000000000000000000000000000011204034560000000000000000000010707520940000112040345600000000000000000000106756027600001120403456000000000000000000001060489036000011204034560000000000000000000010743293740000)
 (.leaf 11204034561066677576000000000010595037650000112040345600000000000000000000106572294100001120403456000000000000000000001053230859000011204034560000000000000000000010880809100000112040345600000000000000000000108217207900001120403456000000000000000000001089967065000011204034560000000000000000000010742602270026112040345600000000000000000000109516705000271120403456106130172000000000001068818322000011204034560000000000000000000010768769970000112040345600000000000000000000106797848600001120403456000000000000000000001075687749000011204034560000000000000000000010472190470000112040345600000000000000000000105626060200001120403456000000000000000000001057329417000011204034560000000000000000000010330519880000))
 (.node 1 (.leaf 11204034560000000000000000000010332064660000112040345600000000000000000000104663691800001120403456000000000000000000001068443268000011204034560000000000000000000010505464480000112040345600000000000000000000107112966600001120403456000000000000000000001049766860000011204034560000000000000000000010420447300000112040345610843481561091539095000000000000001120403456000000000010805990920000000000000011204034561079258382000000000010465439160000112040345611022854711044697108106930925700001120403456109261560600000000001074782057000011067719680000000000101016288610651724810000111568486400000000001065600680106550994900001119354880000000000010688856591080166642000011204034560000000000108612382910780086790000)
 (.leaf 11204034560000000000107457523210707440400000112040345600000000001035758207107597325800281120403456000000000010618182571088260192002911204034560000000000106779010710905927160030111896166400000000001062390360109315980800311116733440000000000010687212421081716444003211160780800000000000000000000010554886110033111607808000000000001025087898105760804300001116078080000000000010687799621065195797000011128012801044676639108261109910822669100034111044198400000000001065734898107751642200351100480512000000000010460862611078962021000010779361280000000000000000000000000000000000108433028200000000000000000000000000000000001091359201000000000000000000001054111095000010905190400000000000108213505710821211820000)))
 (.node 2 (.node 1 (.leaf 11204034560000000000000000000010533749420000112040345600000000001068951929107325032300001120403456000000000010992705081082426753000011204034560000000000109270699910788501730000111935488000000000000000000000000000000000001093134713000000000000000000001035230269000011128012800000000000000000000010639011980000111751987200000000000000000000107569187100001120403456000000000000000000001084566335000011204034560000000000000000000010854475770000112040345600000000000000000000108845266400001120403456000000000000000000001077295645000011204034560000000000000000000010645971970000112040345600000000000000000000104023730500001120403456000000000000000000001086946277000011204034560000000000000000000010784376940000)
 (.leaf 11204034560000000000000000000010952643560000112040345600000000000000000000109748775400001120403456000000000000000000001100850504000011204034560000000000109479534310992185590000110048051200000000000000000000104179318000001120403456000000000000000000001083213881000011181752320000000000000000000010563739810000111411200000000000000000000000105340180800001109131264000000000000000000001049779345000010905190400000000000000000000000000000000000111489843200000000000000000000106587877200001120010240000000000000000000001088414182000011160780800000000000000000000010938026560000110362624000000000000000000000108388362700001093664768000000000000000000000000000000000011204034560000000000000000000010426449920000))
 (.node 1 (.leaf 11204034560000000000000000000010752192140000112040345600000000000000000000107756183600001120403456000000000000000000001051921846000011083448320000000000000000000010632633720000111280128000000000000000000000106225700000001120403456000000000000000000001054506394000011204034560000000000000000000010754775020000111961702400000000000000000000109264458800001120403456000000000000000000001079489673000011204034560000000000000000000010710522740000111896166400000000000000000000108028297700001119617024000000000000000000001074241588000011204034560000000000000000000010601225610000112040345600000000000000000000103817192500001120403456000000000000000000001091397554000011204034560000000000000000000010620636830000)
 (.leaf 11160780800000000000000000000010680158020000110834483200000000000000000000103801369100001103626240000000000000000000000000000000000011004805120000000000000000000010577914840000110638971000000000000000000000000000000000001118464141000000000000000000000000000000000011204034560000000000000000000000000000000000112040345600000000000000000000000000000000001115299879000000000000000000000000000000000011144620670000000000000000000000000000000000112040345600000000000000000000000000000000001120403456000000000000000000001008967547000011204034560000000000000000000000000000000000112040345600000000000000000000000000000000001120403456000000000000000000000000000000000011204034560000000000000000000000000000000000)))))
 (.node 8 (.node 4 (.node 2 (.node 1 (.leaf 11204034560000000000000000000000000000000000112040345600000000000000000000000000000000001120403456000000000000000000001042025863000011204034560000000000000000000010624859750000112040345600000000000000000000107152152200001120403456000000000000000000000000000000003611204034560000000000000000000000000000000037112040345600000000000000000000000000000000001120403456000000000000000000001047361663000011204034560000000000000000000000000000000000112040345600000000000000000000000000000000001073853770000000000000000000000000000000000010796769320000000000000000000000000000000000111896166400000000001058367183106502150800001120010240000000000010591607461071610965000011200102400000000000000000000010749948690000)
 (.leaf 11204034560000000000000000000010695996900000112040345600000000000000000000105545703800001120403456000000000000000000000000000000000011204034560000000000000000000010612095080000107793612800000000001036845371000000000000001077936128000000000000000000000000000000000011141120000000000000000000000000000000000000111817523200000000000000000000103193072400001120403456000000000000000000001051265355000011141120000000000000000000000010354996830000112040345600000000000000000000104094982300001117913088000000000000000000000000000000000011128012800000000000000000000010679167740000112040345600000000000000000000106417075400001120403456000000000000000000001069252906000011204034560000000000000000000010610550260000))
 (.node 1 (.leaf 11204034560000000000000000000000000000000000112040345600000000000000000000103574207000001120403456000000000000000000001031257100000011204034560000000000000000000010573318040000112040345600000000000000000000105984147500001120403456106265564100000000001096179707000011204034560000000000000000000010522571030000112040345600000000000000000000106721713800001120403456000000000000000000001056083884000011204034560000000000000000000010666700850000112040345600000000000000000000099446756700001120403456000000000000000000000000000000000011204034560000000000000000000010708657190000112040345600000000000000000000106433719900001120403456000000000000000000001070651644000011204034560000000000000000000010739859010000)
 (.leaf 11204034560000000000000000000010580706520000112040345600000000000000000000000000000000001120403456000000000000000000000000000000000011204034560000000000000000000010327264790000112040345600000000000000000000000000000000001120403456000000000000000000000000000000000011204034560000000000000000000010515721580000112040345600000000000000000000105887167400001120403456000000000000000000001061996265000011204034560000000000000000000010524211760000112040345600000000000000000000106672204600001120403456000000000000000000001053050420000011204034560000000000105436749500000000000000112040345600000000001040972566000000000000001112801280000000000000000000001066947375000010968104960000000000000000000010584589080000)))
 (.node 2 (.node 1 (.leaf 11160780800000000000000000000010684295740000110048051200000000000000000000104844569300001103626240000000000010526562191064690917000011004805121043062537104414010410708059570000109366476800000000000000000000105343520800001099431936000000000000000000001049038731000010936647680000000000102978551810496279310000110048051200000000001058043383107006427000001120403456000000000010381875481083601880000011204034560000000000101506183310818061440000112040345600000000001058642330107305408900001120403456000000000000000000001069819763000011204034560000000000000000000010727073080000109051904010805352001064452280104036867100001120403456000000000010300002660000000000000011204034560000000000106542116400000000000000)
 (.leaf 11204034560000000000103821439100000000000000112001024000000000000000000000000000000000001114898432000000000000000000000000000000000010994319360000000000109177596810709863570000111358771200000000001107381741109675016200001109917696000000000011061261501092277342000011020533760000000000109833253610874749610000109051904000000000001084874975107242295900001086324736000000000010644170471083413175000010779361280000000000000000000010314968910000111411200000000000000000000000000000000000001118175232000000000000000000001044539045000011148984320000000000000000000010329763040000109943193600000000000000000000107450557000001100480512000000000000000000001044518664000011020533760000000000000000000000000000000000))
 (.node 1 (.leaf 10994319360000000000000000000010503411910000110913126400000000000000000000106870294500001112014848000000000000000000001066605805000011160780800000000000000000000010837464820000112040345600000000000000000000107942631500001120403456000000000000000000001076852517000011204034560000000000000000000010902446100000112040345600000000000000000000107850934800001120403456000000000000000000001093385630003810943089090000000000000000000010505658800000111122841600000000000000000000105809582700001108344832000000000000000000001066364311000010863247360000000000000000000010577749590000110991769600000000000000000000000000000000001120403456000000000000000000001063284362000011054513390000000000000000000000000000000000)
 (.leaf 10936647680000000000000000000010570327370000111044198400000000000000000000105366985100001115684864000000000000000000001085991311000011196170240000000000000000000010864573140000111673344000000000000000000000107474127900001117519872000000000000000000001082779007000011167334400000000000000000000010833602440000112040345600000000000000000000000000000000001120403456000000000000000000001060228975000011204034560000000000000000000010740689340039112040345600000000000000000000106917917800001120403456000000000000000000001082969659000011185684480000000000000000000010841958810000111961702400000000000000000000107470213300001118568448000000000000000000001075104879000011141120000000000000000000000010618332590000))))
 (.node 4 (.node 2 (.node 1 (.leaf 11185684480000000000000000000010680393640000112040345600000000000000000000106779467100001118175232000000000000000000001059961222000011135877120000000000000000000000000000000000109831205700000000000000000000000000000000001120403456000000000000000000000000000000000011204034560000000000000000000000000000000000110947066200000000000000000000000000000000001100399405000000000000000000000000000000000011204034560000000000000000000010532738010000112040345600000000000000000000103914055100001120403456000000000000000000000000000000000011204034560000000000000000000000000000000000112040345600000000000000000000000000000000001120403456000000000000000000000000000000000011204034560000000000000000000000000000000000)
 (.leaf 11204034560000000000000000000000000000000000112040345600000000000000000000000000000000001120403456000000000000000000000000000000000011204034560000000000000000000000000000000000112040345600000000000000000000000000000000001120403456000000000000000000000000000000000011204034560000000000000000000000000000000000112040345600000000000000000000000000000000001120403456000000000000000000000000000000000011204034560000000000000000000000000000000000112040345600000000000000000000000000000000001120403456000000000000000000000000000000000011204034560000000000000000000000000000000000112040345600000000000000000000000000000000001120403456000000000000000000001051804372000011204034560000000000000000000010451519640000))
 (.node 1 (.leaf 11204034560000000000000000000010671796690000112040345600000000000000000000107247491000001120403456000000000000000000001059168403000011204034560000000000000000000000000000000000112040345600000000000000000000000000000000001111026697000000000000000000001034877715000011021912120000000000000000000010412959510000107793612800000000000000000000103169941200001105199104000000000000000000001035850013000010994319360000000000000000000010297873190000107457007300000000000000000000000000000000001109131264000000000010414490391059722435000011204034560000000000000000000010340252320000112040345600000000001042529491104734318500001100480512000000000000000000000000000000000011141120000000000000000000000010456548020000)
 (.leaf 11204034560000000000000000000010534272570000112040345600000000000000000000106685476800001120403456000000000000000000001063204042000010863247361085284035000000000010290456210000111856844800000000000000000000000000000000001120403456000000000000000000001051086745000011075584000000000000000000000010738682710000111634022400000000000000000000105188359300001116340224000000000000000000001070072699000011204034560000000000000000000010861537420000112040345600000000000000000000108711146600401120403456000000000000000000001081704076004111204034560000000000000000000010660991890000112040345600000000000000000000103621519600001120403456000000000000000000001067966501000011204034560000000000000000000010520209490000)))
 (.node 2 (.node 1 (.leaf 11204034560000000000000000000010578721590000112040345600000000000000000000104612142100001120403456000000000000000000001049716138000011204034560000000000000000000010722697510000112040345600000000000000000000108743851200001120403456104129663400000000001075637112000011204034561044245532000000000010616966640000112040345600000000000000000000000000000000001120403456000000000000000000000000000000000011204034560000000000000000000000000000000000112040345600000000000000000000000000000000001120403456000000000000000000000000000000000011204034560000000000000000000010448922210000112040345600000000000000000000106071119000001120403456000000000000000000001069203557000011204034560000000000000000000010535589890000)
 (.leaf 11204034560000000000108294496610504865070000112040345600000000001085561582000000000000001120403456000000000010268864150000000000000011204034560000000000000000000000000000000000112040345600000000000000000000000000000000001120403456000000000000000000001056977567000011204034560000000000000000000000000000000000112040345610767849221062147090000000000000001120403456000000000010716178280000000000000011204034560000000000000000000010436193870000112040345600000000000000000000108483950400001116340224000000000000000000001074599463000011204034561059673558107058267410817884580000111961702410582454981089511149108864743700001120403456000000000010496497421095079516000011204034561047260197103707354110944824500000))
 (.node 1 (.leaf 11204034561026543086106106663710909992540000112040345610711255931070831816109768638700001120403456105718688910747904001095462674000011204034560000000000105890405410880177800000112040345610410669211048065973109255319100001120403456000000000010346307781083478786000011204034561049011872106320237710915195520000112040345610853799211082451716109256914200001120403456109952935710850016431092084990000011175198721023430309105785883410971221320000111358771210169913471044341431108654369100001077936128000000000000000000001062448330000010994319360000000000000000000010340577680000109681049600000000001033530193103414915700001099431936000000000000000000000000000000000011141120000000000000000000000000000000000000)
 (.leaf 11189616640000000000105572980500000000000000109943193600000000000000000000000000000000001102053376000000000000000000000000000000000010994319360000000000000000000000000000000000109051904000000000000000000000000000000000001113587712000000000011065619381075149315004211128012800000000000110987289610928717430043111201484800000000001109325486108522589500001116078080000000000011094943071091847727000011175198721039785007111287884810850940700000111961702400000000001113963024109808952500001117126656000000000011139976531095065537000011160780800000000000110094842910892386230044111607808000000000001109093384110041327200451099431936000000000010964167561078114173000010901599860000000000000000000010387084070000)))))))
 (.node 32 (.node 16 (.node 8 (.node 4 (.node 2 (.node 1 (.leaf 10863247360000000000000000000010474384370000111044198400000000000000000000107927731600001114898432000000000000000000001092898534000011163402240000000000000000000010754096730000111673344000000000000000000000106884963700001116340224000000000000000000001074430166000011160780800000000000000000000010645029040000111607808000000000000000000000105905874700001116078080000000000000000000001066516047000011156848640000000000000000000010723142120000111489843200000000000000000000107742366500001120403456000000000000000000001086264193004611204034560000000000000000000010978484130000112040345600000000000000000000108614042400001120403456000000000000000000001095212155000011204034560000000000000000000010927771230047)
 (.leaf 11204034560000000000000000000010929806790048112040345600000000000000000000110069419200001091637923000000000000000000001047987311000010913771000000000000000000000010509930480000109868828600000000000000000000106853144800001103626240000000000000000000000000000000000011204034560000000000000000000010536108160000112040345600000000000000000000104498690700001120403456000000000000000000001059853534000011204034560000000000000000000010719131510000111201484800000000000000000000105901663000001107470267000000000000000000001049931017000011195930640000000000000000000010844988430000110913126400000000000000000000108349572800001118961664000000000000000000001091759043000011204034560000000000000000000010862508710000))
 (.node 1 (.leaf 11204034560000000000000000000010848913710000112001024000000000000000000000108328208600001120403456000000000000000000001085627787000011204034560000000000000000000010488176710000112040345600000000000000000000104129628500001120403456000000000000000000001097359613004911196170240000000000000000000010864033370000112040345600000000000000000000107178471500001120403456000000000000000000001069227792000011204034560000000000000000000010770271240000112040345600000000000000000000106816069000501120403456000000000000000000001066355670005111179130880000000000000000000010619116940000111751987200000000000000000000107399732500001117519872000000000000000000001072306719000011167334400000000000000000000010453529920000)
 (.leaf 11120148481056481592000000000010498963120052111201484810691929250000000000000000000000001103626240102620458900000000000000000000000010781531830000000000000000000000000000000000111232577700000000000000000000000000000000001120403456000000000000000000000000000000000011204034560000000000000000000000000000000000112040345600000000000000000000000000000000001120403456000000000000000000000000000000000011204034560000000000000000000000000000000000112040345600000000000000000000000000000000001120403456000000000000000000000000000000000011204034560000000000000000000000000000000000112040345600000000000000000000000000000000001120403456000000000000000000000000000000000011204034560000000000000000000000000000000000)))
 (.node 2 (.node 1 (.leaf 11204034560000000000000000000000000000000000112040345600000000000000000000000000000000001120403456000000000000000000000000000000000011204034560000000000000000000000000000000000112040345600000000000000000000000000000000001120403456000000000000000000000000000000000011204034560000000000000000000000000000000000112040345600000000000000000000000000000000001120403456000000000000000000000000000000000011204034560000000000000000000000000000000000112040345600000000000000000000000000000000001120403456000000000000000000000000000000000011204034560000000000000000000000000000000000112040345600000000000000000000000000000000001120403456000000000000000000000000000000000011204034560000000000000000000010413635770000)
 (.leaf 11204034560000000000000000000000000000000000112040345600000000000000000000000000000000001120403456000000000000000000000000000000000011019079390000000000000000000000000000000000112040345600000000000000000000000000000000001120403456000000000000000000000000000000000011204034560000000000000000000000000000000000111534352600000000000000000000000000000000001092746320000000000000000000001052529094000010775662740000000000000000000010446859240000110362624000000000001024765775000000000000001107558400000000000010253831771040702635000011104419840000000000000000000010419614510000109366476800000000000000000000103023123400001105199104000000000000000000001046192294000011175198720000000000000000000010635894680000))
 (.node 1 (.leaf 11167334400000000000000000000010667543690000110913126400000000000000000000104783499200001112014848000000000000000000001055611799000011112284160000000000000000000000000000000000111122841600000000000000000000105934807500001120010240000000000010251415851061815962000011148984320000000000000000000010520233730000111411200000000000000000000000104665308100001115684864000000000000000000001066816774000011104419840000000000000000000000000000000000110519910400000000000000000000103487820300001103626240000000000000000000001060419475000011120148480000000000000000000010568713480000111411200000000000000000000000106488985900001117126656000000000010365635131069862390000011156848640000000000105724982110592933500000)
 (.leaf 11160780800000000000106162867410654694660000111607808000000000001059491257106558335300001111228416000000000010427643721027874192000011083448320000000000000000000010624344280000112040345600000000000000000000104210789700001120403456000000000000000000000000000000000011204034561115779252106271248210787658800000109051904000000000000000000000000000000000001115684864000000000000000000001033651872000011204034560000000000000000000010849717110000112040345600000000000000000000108446964100001120403456000000000000000000001069557202000011204034560000000000000000000010627390230000111817523200000000000000000000107498372700001120403456000000000000000000001077230351000011204034560000000000000000000010606085750000))))
 (.node 4 (.node 2 (.node 1 (.leaf 11204034560000000000000000000010542241720000112040345600000000000000000000106509249000001120403456000000000000000000001056439672000011204034560000000000000000000010521744420000112040345600000000000000000000106957318200001120403456000000000000000000001062401004000011204034560000000000000000000010576884150000112040345600000000000000000000106524612000001120403456000000000000000000001065712126000011204034561045132242000000000010691944150000112040345600000000000000000000106792903200001120403456000000000000000000000000000000000011204034560000000000000000000000000000000000112040345610248017450000000000000000000000001120403456000000000000000000000000000000000011204034560000000000000000000000000000000000)
 (.leaf 11204034560000000000000000000000000000000000112040345600000000000000000000000000000000001120403456000000000000000000000000000000000011204034560000000000000000000010433513740000112040345600000000000000000000000000000000001120403456106494576500000000000000000000000011204034560000000000000000000000000000000000112040345600000000000000000000000000000000001120403456000000000000000000001043070722000011204034560000000000000000000010300886820000112040345600000000000000000000000000000000001120403456000000000000000000000000000000000011204034560000000000000000000000000000000000112040345600000000000000000000000000000000001120403456000000000010659647460000000000000011204034560000000000105130062000000000000000))
 (.node 1 (.leaf 11196170240000000000103375836310511920770000112040345610517731330000000000107730304000001120403456000000000000000000001051601388000011204034560000000000104184498110915055610000112040345610465631371058105459109030327100001120403456105143930010586138081101291425000011204034560000000000103370467611003523850000112040345600000000001030053954109142322300001120403456104182249910297855181093408011000011160780800000000000103064451210855316500000111817523200000000001032080641108847931800001119354880000000000010333422881087619354000011204034560000000000105110264910832705300000112040345600000000001061611897106712555300001120403456000000000010753994131077241856000011204034560000000000106696970110802179540000)
 (.leaf 11181752321048026513106039387110922974400053110362624010414893041045804404106759151400001067654127000000000000000000000000000000000011020533760000000000000000000010596324550000110755840000000000000000000000000000000000001103626240000000000000000000001062957868000011020533760000000000109830943510715998790000111358771200000000001108920815107761072500001117519872000000000011136389091063304705000011204034560000000000111646193710689511240054112040345600000000001116523568108475471100001120403456000000000011149440191099190182000011204034560000000000111474691310991282840000112040345600000000001115514654109632626400001120403456000000000011153329881097016773000011204034560000000000111420605710983317530055)))
 (.node 2 (.node 1 (.leaf 11204034560000000000111457672910989517860056112040345600000000001115213686109766902900001118961664105632029611157054691069646538000011204034560000000000111673028110748993020000111712665610007112741113464557108425917700001109131264106811750611073547401072697593000011075584000000000000110448790710320141770000110677196800000000001103883403103342547200001099431936000000000010956971181054656463000010994319360000000000108340361310793684760000109366476800000000001086471956107929970300001103626240000000000010921628931091280759000011120148480000000000108874631710692925760000111791308800000000001089965182107189175000001109131264000000000000000000001072983864000010946327090000000000000000000010369312980000)
 (.leaf 10968104960000000000000000000010543908390000110048051200000000000000000000107517908800001103626240000000000000000000001070958005000011067719680000000000000000000010682999280000110362624000000000000000000000106704354600001108344832000000000000000000001041631170000011083448320000000000000000000010692617290000109943193600000000000000000000106567749200001120403456000000000000000000001095847403000011204034560000000000000000000010934168020057112040345600000000000000000000109433173900581120403456000000000000000000001092559946005911204034560000000000000000000010889435940060112040345600000000000000000000109423067400001120403456000000000000000000001093496876000011204034560000000000000000000010977135990000))
 (.node 1 (.leaf 11189616640000000000000000000010878416700000111935488000000000000000000000109416459400001114898432000000000000000000001094711707000011120148480000000000000000000010897098830000111201484800000000000000000000108554755900001105199104000000000000000000001047361375000011204034560000000000000000000010668144210000112040345600000000000000000000107620659500001120403456000000000000000000001061822608000011135877120000000000000000000010619270900000107784989300000000000000000000000000000000001100312163000000000000000000001068560376000010905190400000000000000000000010764241530000111935488000000000000000000000106363368800001117519872000000000000000000001071699475000011181752320000000000000000000010637480870000)
 (.leaf 11200102400000000000000000000010853210970000111935488000000000000000000000108848570500001113587712000000000000000000001090902676000011160780800000000000000000000010778553510061111122841600000000000000000000108645011000001120403456000000000000000000001074288805000011204034560000000000000000000000000000000062112040345600000000000000000000106219031200631118175232000000000000000000000000000000000011120148480000000000000000000010130627810000111411200000000000000000000000106669751700001109917696000000000000000000000000000000000011101554080000000000000000000000000000000000111591507900000000000000000000000000000000001120403456000000000000000000000000000000000011204034560000000000000000000000000000000000)))))
 (.node 8 (.node 4 (.node 2 (.node 1 (.leaf 11204034560000000000000000000000000000000000112040345600000000000000000000107866195300001120403456000000000000000000001083596629000011204034560000000000000000000010733652070000112040345600000000000000000000000000000000001120403456000000000000000000000000000000000011204034560000000000000000000000000000000000112040345600000000000000000000000000000000001120403456000000000000000000000000000000000011204034560000000000000000000000000000000000112040345600000000000000000000000000000000001120403456000000000000000000000000000000000011204034560000000000000000000000000000000000112040345600000000000000000000000000000000001120403456000000000000000000000000000000000011204034560000000000000000000000000000000000)
 (.leaf 11204034560000000000000000000000000000000000112040345600000000000000000000000000000000001120403456000000000000000000000000000000000011204034560000000000000000000000000000000000112040345600000000000000000000000000000000001120403456000000000000000000000000000000000011204034560000000000000000000000000000000000112040345600000000000000000000000000000000001120403456000000000000000000000000000000000011145144700000000000000000000000000000000000110966021800000000000000000000000000000000001120403456000000000000000000000000000000000011204034560000000000000000000000000000000000112040345600000000000000000000000000000000001094042675000000000000000000000000000000000010089817700000000000000000000000000000000000))
 (.node 1 (.leaf 11020533760000000000000000000000000000000000108632473600000000000000000000000000000000001105199104000000000000000000001030048384000010968104960000000000000000000010384143750000111280128000000000000000000000105199577200001114112000000000000010438582470000000000000011175198720000000000106078981310491011900000111935488000000000001081824248107013455800001120403456000000000000000000001075600819000011189616640000000000102508789810533107610000112040345600000000000000000000106622104700001119354880000000000000000000001036594273000011181752320000000000000000000010571717980000111817523200000000000000000000104985705100001117519872000000000000000000000000000000000011104419840000000000000000000010311450040000)
 (.leaf 10905190400000000000000000000000000000000000106639986300000000000000000000000000000000001110441984000000000010740652051040484116000011181752320000000000104410655010650890910000110913126400000000001012310370102694075800001120403456105424924910449252781061398563006411204034561072122521107927369210512779370065109943193600000000000000000000105114934800001120403456000000000000000000001045058425000011204034560000000000000000000010590894640000112040345600000000000000000000106711579600001120403456000000000000000000001067747744000011204034560000000000000000000010697872850000112040345600000000000000000000106621666900001120403456108878044000000000001036732894000011204034560000000000000000000010124948050000)))
 (.node 2 (.node 1 (.leaf 11204034560000000000000000000010711164580000112040345600000000000000000000107669173400001120403456000000000000000000001073971273006611204034560000000000000000000010622158560000112040345600000000000000000000105102411500001120403456000000000000000000001067474256000011204034560000000000000000000010324434970000112040345600000000000000000000000000000000001120403456000000000000000000000000000000000011204034560000000000000000000000000000000000112040345600000000000000000000000000000000001120403456000000000000000000000000000000000011204034560000000000000000000000000000000000112040345600000000000000000000000000000000001120403456000000000000000000000000000000000011204034560000000000000000000000000000000000)
 (.leaf 11204034560000000000000000000000000000000000112040345600000000000000000000000000000000001120403456000000000000000000000000000000000011204034560000000000000000000000000000000000112040345600000000000000000000000000000000001120403456000000000000000000000000000000000011204034560000000000000000000000000000000000112040345600000000000000000000000000000000001120403456000000000000000000000000000000000011204034560000000000000000000010589335700000112040345600000000000000000000000000000000001120403456000000000000000000000000000000000011204034560000000000000000000000000000000000112040345610707543300000000000104348628500001120403456104722281700000000000000000000000011204034561044604833000000000000000000000000))
 (.node 1 (.leaf 11204034560000000000000000000010496360100000112040345600000000000000000000104207310700001120403456000000000000000000001033524189000011204034560000000000000000000010482529200000112040345600000000000000000000105044202200001120403456103178563100000000001069795239000011204034560000000000105466948500000000000000112040345600000000001041992620000000000000001120403456000000000000000000000000000000000011204034560000000000000000000010458781050000112040345600000000000000000000000000000000001120403456100389814010400800181036224921000011204034560000000000107197770000000000000000112040345600000000001030778729104964791400001120403456000000000010489216111047123304000011204034560000000000107383116310364482320000)
 (.leaf 11204034560000000000000000000010535319960000112040345600000000000000000000107963505600001120403456000000000010297049871085226077000011204034560000000000104114033810943807050000112040345610350357131050981853109974727600001120403456000000000000000000000000000000000011204034560000000000000000000000000000000000112040345600000000000000000000103243910400001120403456000000000000000000001067626765000011204034560000000000105478357010771026390000112040345600000000001044113261108677351200001120403456000000000010393686641072222753000011204034560000000000104306636210733449770000112040345600000000001086104745107616739200001120403456103069363510989815731080298676000011204034561048817189108938070610876800800000))))
 (.node 4 (.node 2 (.node 1 (.leaf 11204034561050002130107155659210933697910067112040345610471540971078245248110138687000681096810496000000000010355568801040660091000010936647680000000000000000000000000000000000109681049600000000001030027110000000000000001093664768000000000010745379030000000000000011204034560000000000111707535400000000000000112040345600000000001117023673105720686800001120403456000000000011170214841057641825000011204034560000000000111702001610651332850000112040345600000000001116818729107242823700001120403456000000000011159723181092619155000011204034560000000000111672857710813935440000112040345600000000001116635241107979164700001120403456000000000011158410361093087032000011204034560000000000111703706810617585170000)
 (.leaf 11204034560000000000111680837410744936350000112040345609791381901117050320106174455700001120403456000000000011170099891058029271000011204034560000000000111628855500000000000000112040345600000000001116682676099751974500001120403456000000000011170419311050378097000011051991040000000000110300978210520969100000109943193600000000001092782706000000000000001099431936000000000010924423380000000000000010994319360000000000108915337500000000000000109681049600000000001072049003000000000000001074360190000000000000000000000000000000000011120148480000000000108857099610775661010000103714306500000000000000000000000000000000001102053376000000000010905712591084013529000011091312640000000000109596366610898113390069))
 (.node 1 (.leaf 11120148480000000000110116465510925495220000111607808000000000001104002102109383795300001116340224000000000011018897461097759013000011156848640000000000109973785810983330220000111201484800000000001101021315109027530200001120403456000000000000000000001067344195000011036262400000000000000000000000000000000000108632473600000000000000000000107845177500001118175232000000000000000000001089125739000011099176960000000000000000000010764945240000110048051200000000000000000000000000000000001116078080000000000000000000001059403076000011160780800000000000000000000010496960640000111489843200000000000000000000105110875300001109131264000000000000000000001046544820000011077771590000000000000000000010411666950000)
 (.leaf 11204034560000000000000000000010828742000000112040345600000000000000000000108758230900001120403456000000000000000000001093629314000011204034560000000000000000000010842443230070112040345600000000000000000000109891000200001120403456000000000000000000001093203949000011204034560000000000000000000010977630440000112040345600000000000000000000110151523400001120403456000000000000000000001094626607007111204034560000000000000000000010988237920000112040345600000000000000000000109479721800001120403456000000000000000000001096693519000011181752320000000000000000000010891396620000111280128000000000000000000000106729794200001107558400000000000000000000001088912620000011160780800000000000000000000010853881630000)))
 (.node 2 (.node 1 (.leaf 11036262400000000000000000000010711305280000110913126400000000000000000000107505112200001115684864000000000000000000001090772105000010888963690000000000000000000000000000000000108632473600000000000000000000105529375600001113587712000000000000000000001081067289000011163402240000000000000000000010770830430000111751987200000000000000000000107107591800001120010240000000000000000000001093643887000011128012800000000000000000000010642202400000110519910400000000000000000000104858185200001096810496000000000000000000000000000000000011051991040000000000000000000000000000000000111607808000000000000000000000104769215200001114898432000000000000000000001086172654000011128012800000000000000000000010784869510000)
 (.leaf 11099176960000000000000000000010734318720000110677196800000000000000000000108135842400001099431936000000000000000000001073045726000010779361280000000000000000000010498702240000109051904000000000000000000000103362529700001099431936000000000000000000001047618412000011099176960000000000000000000010723589500000111201484800000000000000000000107401968000001109917696000000000000000000001058396860000010936647680000000000000000000010410546450000110755840000000000000000000000107367882000001096810496000000000000000000001044807342000011179130880000000000000000000010840419750000112040345600000000000000000000109331378600721120403456000000000000000000001050536601000011204034560000000000000000000010338623660000))
 (.node 1 (.leaf 11204034560000000000000000000010884873670000112040345600000000000000000000106971660800001120403456000000000000000000001074833142000011204034560000000000000000000010728878310000111896166400000000000000000000106074677300001118961664000000000000000000001062290188000011167334400000000000000000000010384373200000111201484800000000000000000000104025591600001108823035000000000000000000000000000000000011132160440000000000000000000000000000000000111867013400000000000000000000000000000000001120403456000000000000000000001044771669000011204034560000000000000000000000000000000000108762448800000000000000000000000000000000001112531796000000000000000000001064903571000011204034560000000000000000000010771895210000)
 (.leaf 11204034560000000000000000000010614352290000112040345600000000000000000000000000000000001120403456000000000000000000000000000000000011204034560000000000000000000000000000000000112040345600000000000000000000000000000000001120403456000000000000000000000000000000000011204034560000000000000000000000000000000000112040345600000000000000000000000000000000001120403456000000000000000000000000000000000011204034560000000000000000000000000000000000112040345600000000000000000000000000000000001120403456000000000000000000000000000000000011204034560000000000000000000000000000000000112040345600000000000000000000000000000000001120403456000000000000000000000000000000000011204034560000000000000000000000000000000000))))))
 (.node 16 (.node 8 (.node 4 (.node 2 (.node 1 (.leaf 11204034560000000000000000000000000000000000112040345600000000000000000000000000000000001120403456000000000000000000000000000000000011204034560000000000000000000000000000000000112040345600000000000000000000000000000000001120403456000000000000000000000000000000000011204034560000000000000000000000000000000000111792721800000000000000000000000000000000001112113886000000000000000000000000000000000010974139510000000000000000000000000000000000106655127700000000000000000000000000000000001008981770000000000000000000000000000000000010759952560000000000000000000000000000000000109681049600000000000000000000000000000000001107558400000000000000000000001047808906000011156848640000000000000000000010497223290000)
 (.leaf 11189616640000000000000000000010732331130000111607808000000000000000000000105764661400001117126656000000000010457305841043863073000011204034560000000000000000000010681968690000112040345600000000001039596834106913990300001120403456000000000010297855181093037186000011204034560000000000000000000010721480500000112040345611024125461049455126107242611700001120403456106816297210255173941074994304000011141120000000000000000000000010748648460000110834483200000000000000000000102960510200001077936128000000000010498745570000000000000011004805120000000000101785356200000000000000110913126400000000001048535735104416474100001116340224000000000010464620711057718469000011160780800000000000103340939710569672720000))
 (.node 1 (.leaf 11135877120000000000000000000010743969910000111201484800000000000000000000104521234500001108344832000000000010359997991044287579000011051991040000000000000000000000000000000000110048051200000000001076688742103444856000001117126656000000000010767650781042726886000011204034560000000000000000000010815208130000112040345610874934961057753137109833655400731120403456108507688410514113501093295442007411204034561058702660105718271210741380980000112040345600000000000000000000104381969900001120403456000000000000000000001060084368000011204034560000000000000000000010569265970000112040345600000000000000000000107411835400001120403456000000000000000000001040514197000011204034560000000000000000000010338017630000)
 (.leaf 11204034560000000000000000000010532732020000112040345600000000000000000000106079277300001120403456000000000000000000001047440790000011204034560000000000000000000010639021370000112040345600000000000000000000105153430800001120403456105528628200000000001058854592000011204034560000000000000000000010663095070000112040345600000000000000000000107571610500751120403456000000000000000000001056806885007611204034560000000000000000000010408533850000112040345600000000000000000000000000000000001120403456000000000000000000000000000000000011204034560000000000000000000010671916490000112040345600000000000000000000106184515400001120403456000000000000000000000000000000000011204034560000000000000000000010796132690000)))
 (.node 2 (.node 1 (.leaf 11204034560000000000000000000010348262060000112040345600000000000000000000000000000000001120403456000000000000000000000000000000000011204034560000000000000000000000000000000000112040345600000000000000000000000000000000001120403456000000000000000000000000000000000011204034560000000000000000000000000000000000112040345600000000000000000000000000000000001120403456000000000000000000000000000000000011204034560000000000000000000000000000000000112040345600000000000000000000000000000000001120403456000000000010517670260000000000000011204034560000000000108173826500000000000000112040345600000000001067944457000000000000001120403456000000000000000000001015022817000011204034560000000000000000000000000000000000)
 (.leaf 11204034560000000000000000000000000000000000112040345600000000000000000000000000000000001120403456000000000000000000000000000000000011204034560000000000107171597500000000000000112040345600000000001078801413000000000000001120403456000000000010649706950000000000000011204034560000000000000000000000000000000000112040345600000000001073908757000000000000001120403456000000000010772147080000000000000011204034560000000000106479789010543294210000112040345600000000001041717474000000000000001120403456000000000010724046800000000000000011204034560000000000107180741100000000000000112040345600000000001065465623000000000000001120403456000000000010283091230000000000000011204034560000000000108331259700000000000000))
 (.node 1 (.leaf 11204034560000000000107212533910483683500000112040345610402406091072484372109013886000001120403456000000000010545688221075368137000011204034560000000000106312855710741717280000112040345610336632021061343461108242268900001120403456000000000010749258761093439844000011075584001060686868106839324810609824200000107793612800000000001025329490000000000000001100480512000000000000000000000000000000000011075584000000000000106561997400000000000000110834483200000000001030053954104067363900001109917696000000000010385365141043498953000010994319360000000000000000000000000000000000109943193600000000000000000000000000000000001093664768000000000010434488831062303389000011135877120000000000106259671910836286130000)
 (.leaf 11163402240000000000000000000010734511830000111817523200000000000000000000107537000100001114898432000000000010413483751051059885000010968104960000000000000000000000000000000000112040345600000000001068976256000000000000001120403456000000000010552600430000000000000011193548800000000000104607283900000000000000111817523200000000001089996430000000000000001116078080000000000010681030021050915521000011160780800000000000105265286300000000000000111673344000000000000000000000106828567000001116078080102701419010666115071091052738000011148984320000000000107096267810872288060000110991769600000000001077751998000000000000001107558400000000000010545084241047828474000010994319360000000000109207743410276388500000))))
 (.node 4 (.node 2 (.node 1 (.leaf 11160780800000000000111121840210370568610000112040345600000000001117046912104761563600001120403456000000000011170761150000000000000011204034560000000000111707057010259744680000112040345600000000001117071173102850522900001120403456000000000011157006971044553482000011204034560000000000110518038700000000000000112040345600000000001087738846106737953100001120403456000000000011036477881059407861000011204034560000000000109472760500000000000000112040345600000000001096041156000000000000001120403456000000000010619507970000000000000011204034560000000000108669257600000000000000112040345600000000001045233979000000000000001120403456000000000010559109990000000000000011204034560000000000106542955200000000000000)
 (.leaf 11200102400000000000109625946910634817140000111634022400000000001097505807106905612900001119617024106492690711050485281073684531000011204034561078039555110974279410910555000000112040345610743268201105765020109762041900001120403456000000000011010730101096597136000011181752320000000000110282203510957785960077112040345600000000001101180856109574455000781120403456000000000011022389221064778814000011204034560000000000109574818410614202080000112040345600000000000000000000105888547800001120403456000000000000000000001051076784000011189616640000000000000000000010720684240000112001024000000000000000000000110048997500001117126656000000000000000000001089368982000011204034560000000000000000000010589061390000))
 (.node 1 (.leaf 11204034560000000000000000000010579566440000112040345600000000000000000000106687721600001117519872000000000000000000001075036585000010592490270000000000000000000000000000000000109943193600000000000000000000106739478600001110441984000000000000000000001082219441000011128012800000000000000000000010771516530000111201484800000000000000000000105974084400001112014848000000000000000000001053341020000011204034560000000000000000000011000082050000112040345600000000000000000000109533345000001120403456000000000000000000001093236720007911204034560000000000000000000010950947000000111935488000000000000000000000109267990700001117126656000000000000000000001084822626000011185684480000000000000000000010874108490000)
 (.leaf 11091312640000000000000000000010733643330000109943193600000000000000000000105139605900001096810496000000000000000000000000000000000010985384450000000000000000000010328252320000109051904000000000000000000000000000000000001107558400000000000000000000001076875610000011141120000000000000000000000010804123900000112040345600000000000000000000109717962700001120403456000000000000000000001098398459000011196170240000000000000000000010915861140000111280128000000000000000000000108033999800001105199104000000000000000000001052135180000010779361280000000000000000000010353530240000111634022400000000000000000000107390555800001120403456000000000000000000001089468894000011181752320000000000000000000010862143680000)))
 (.node 2 (.node 1 (.leaf 11051991040000000000000000000010653758620000110573566000000000000000000000106583415200001111228416000000000000000000001077397999000011083448320000000000000000000010291278940000112040345600000000000000000000108473267100001120403456000000000000000000001075467203000011135877120000000000000000000010705419870000107793612800000000000000000000000000000000001086324736000000000000000000001069923003000011020533760000000000000000000010746428140000109917445800000000000000000000106722334600001090519040000000000000000000001088029140000011036262400000000000000000000010764219650000109681049600000000000000000000103795848400001120010240104877605200000000001093613013008011204034560000000000000000000010747388460000)
 (.leaf 11204034560000000000000000000010654649120000112040345600000000000000000000105239603800001120403456000000000000000000001061229873000011200102400000000000000000000010597810670000111568486400000000000000000000103909318300001115684864000000000000000000001059661577000011141120000000000000000000000010399907170000110048051200000000000000000000104258663800001094310167000000000000000000000000000000000011204034560000000000000000000000000000000000112040345600000000000000000000105050225700001120403456000000000000000000000000000000000011204034560000000000000000000000000000000000109260639900000000000000000000105733750700001120403456000000000000000000001068195749000011204034560000000000000000000000000000000000))
 (.node 1 (.leaf 11204034560000000000000000000000000000000000112040345600000000000000000000000000000000001120403456000000000000000000000000000000000011204034560000000000000000000000000000000000112040345600000000000000000000000000000000001120403456000000000000000000000000000000000011204034560000000000000000000000000000000000112040345600000000000000000000000000000000001120403456000000000000000000000000000000000011204034560000000000000000000000000000000000112040345600000000000000000000000000000000001120403456000000000000000000000000000000000011204034560000000000000000000000000000000000112040345600000000000000000000000000000000001120403456000000000000000000000000000000000010698283710000000000000000000000000000000000)
 (.leaf 11075584000000000000000000000010659589300000109051904000000000000000000000102715418800001090519040000000000000000000001039706374000011171266560000000000000000000010683429750000111817523200000000000000000000107471107900001120403456000000000010661610391059427946000011204034560000000000000000000010812346590000112040345600000000001024980523107659270400001120403456000000000010365366701068603714000011204034560000000000000000000010821315130000112040345600000000000000000000107572709700001120403456000000000000000000001057832209000011204034561108776811105676328110861446640081112040345610929091341033812050108023790400821120403456000000000000000000001088890130000011204034560000000000000000000010700155210000)))))
 (.node 8 (.node 4 (.node 2 (.node 1 (.leaf 11204034560000000000000000000010795836110000112040345600000000000000000000108051734500001120403456000000000000000000001085915665000011112284160000000000000000000010616899520000111634022400000000000000000000108088469600001109131264000000000000000000001070948031000011020533760000000000000000000010635491780000109681049600000000001055592232104273922700001118175232000000000010719986711042116886000011204034560000000000109236338000000000000000111712665600000000001104211450102148874600001105199104000000000010728031391080384600000010779361280000000000105768602810431024010000112040345600000000000000000000103024922300001120403456000000000000000000001041158119000011204034560000000000107501437610437319710000)
 (.leaf 11112284160000000000000000000010307688780000110362624000000000000000000000000000000000001065819371000000000000000000000000000000000011167334400000000000000000000010566565000000112040345610477859941053709828108295911600831120403456000000000000000000001089627331000011204034560000000000000000000010830099440000109681049600000000001074250174104830340900001105199104000000000000000000000000000000000011189616640000000000000000000010396027780000111961702400000000000000000000106020750300001117126656000000000000000000001044750436000011204034560000000000000000000010513627650000112040345600000000000000000000105303193900001120403456000000000000000000001066031986000011204034560000000000000000000010567153740000))
 (.node 1 (.leaf 11204034560000000000000000000010387561720000112040345600000000000000000000104976454400001120403456000000000000000000001080941463000011204034560000000000000000000010332790350084112040345600000000000000000000105672402700001120403456000000000000000000000000000000000011204034560000000000000000000010576098230085112040345600000000000000000000000000000000001120403456000000000000000000000000000000000011204034560000000000000000000000000000000000112040345600000000000000000000105263583500001120403456000000000000000000001057643374000011204034560000000000000000000010575844890000112040345600000000000000000000108040368300001120403456000000000000000000001068662437000011204034560000000000000000000010685040090000)
 (.leaf 11204034560000000000000000000000000000000000112040345600000000000000000000000000000000001120403456000000000000000000001045103466000011204034560000000000000000000000000000000000112040345600000000000000000000000000000000001120403456000000000000000000000000000000000011204034560000000000000000000000000000000000112040345600000000000000000000000000000000001120403456000000000000000000000000000000000011204034560000000000000000000000000000000000112040345600000000000000000000000000000000001120403456000000000000000000000000000000000011204034560000000000000000000000000000000000112040345600000000000000000000000000000000001120403456106667573000000000001047443956000011204034560000000000000000000010498435170000)))
 (.node 2 (.node 1 (.leaf 11204034560000000000107512342810418325190000112040345600000000001074698545000000000000001120403456000000000010456164990000000000000011204034560000000000105025036600000000000000112040345600000000001099592473000000000000001120403456000000000000000000000000000000000011204034560000000000000000000000000000000000112040345600000000000000000000000000000000001120403456000000000000000000001057195454000011204034560000000000000000000010647841730000112040345600000000000000000000105965866800001120403456000000000000000000001040829165000011204034560000000000000000000000000000000000112040345600000000000000000000102730024400001120403456000000000000000000001066395416000011204034560000000000000000000010854799460000)
 (.leaf 11204034560000000000000000000010742063720086112040345600000000001025034211107475297900871120403456000000000010993146531049585260000011204034561062760046110189907810420193040000112040345611042297891094496918109229013900001120403456110096197210882759261097139261000011204034561073514392109989299510854272840000112040345610855324631093161242110029084000881120403456108005032110613770161095951904008911189616641069433871106264872910499456360000112040345600000000001049626254000000000000001120403456000000000010570350720000000000000011204034560000000000103735539800000000000000112040345600000000001080914923000000000000001120403456000000000010827484630000000000000011204034560000000000109104899000000000000000))
 (.node 1 (.leaf 11204034560000000000103351677110819255490000110913126400000000001033476506000000000000001100480512000000000010434019070000000000000011204034560000000000103833518700000000000000112040345600000000001055139247000000000000001120403456000000000010555821650000000000000011204034560000000000108146689300000000000000111712665600000000001097526044105997143900901118568448000000000010790295831056276307000011067719680000000000108169045009664444510091111044198400000000001079490537000000000000001116078080000000000010738789781056962543000011160780800000000000110404315400000000000000111791308800000000001104608494000000000000001120403456000000000011100226060000000000000011204034560000000000110941959600000000000000)
 (.leaf 11204034560000000000111080261610365857140000112040345600000000001112472840000000000000001120403456000000000011105289630000000000000011204034560000000000110774161200000000000000112040345600000000001103121351000000000000001120403456000000000011040548451048577036000011204034560000000000111707298200000000000000112040345600000000001117023830105211463800001120403456000000000011171166951022108444000011204034560000000000111278287710419659290000112040345600000000001116656134106154573900001120403456000000000011130904251043131283000011204034560000000000000000000000000000000000112040345600000000000000000000000000000000001120403456000000000000000000001040809291000011204034560000000000000000000000000000000000))))
 (.node 4 (.node 2 (.node 1 (.leaf 11204034560000000000108086039710256531980000112040345600000000000000000000000000000000001120403456107242134010868209221052015297000011204034560000000000000000000000000000000000112040345600000000000000000000000000000000001120403456000000000010948722030000000000000011204034560000000000000000000000000000000000112040345600000000000000000000000000000000001120403456000000000010670082881028586032000011175198720000000000109276865510792710700000112040345610489222821108741902109539920500921120403456000000000010837328661091327155009311204034560000000000107412811910658277080000112040345600000000000000000000108070596500001120403456000000000000000000001079317502000011204034560000000000000000000010847881470000)
 (.leaf 11204034560000000000000000000010784258260000112040345600000000000000000000108985030100001120403456000000000000000000001073819616000011204034560000000000000000000010767007890000112040345600000000000000000000103023811000001120403456000000000000000000001074334778000011204034560000000000000000000010700083850000112040345600000000000000000000108840811700001120403456000000000000000000001066487309000011204034560000000000000000000010749176360000112001024000000000000000000000107781932900001118175232000000000000000000001075924098000011196170240000000000000000000010820531310000111712665600000000000000000000107510128300001112801280000000000000000000001085128392000010905190400000000000000000000010696708550000))
 (.node 1 (.leaf 11167334400000000000000000000010719950140000112001024000000000000000000000108393297200001120010240000000000000000000001087535635009411181752320000000000000000000010896230650095111817523200000000000000000000110004860600961116078080000000000000000000001097387413000011160780800000000000000000000010934053180097111122841600000000000000000000108492513600001107558400000000000000000000001084177493000010863247360000000000000000000010516012330000109943193600000000000000000000105244179600001103626240000000000000000000001075027446000011104419840000000000000000000010775968330000111411200000000000000000000000107416713200001112801280000000000000000000001077670677000011099176960000000000000000000010457428780000)
 (.leaf 11004805120000000000000000000010714714510000110362624000000000000000000000107046440500001099431936000000000000000000001069601953000011004805120000000000000000000010775938670000109943193600000000000000000000106512758900001102465833000000000000000000001062026052000011036262400000000000000000000010406051630000110205337600000000000000000000106364042700001077936128000000000000000000000000000000000010936647680000000000000000000010632040620000110677196800000000000000000000106448543100001109131264000000000000000000001073534793000011189616640000000000000000000010860114470000112001024000000000000000000000109041779300001120403456000000000000000000001099054590000011181752320000000000000000000010986398460000)))
 (.node 2 (.node 1 (.leaf 11083448320000000000000000000010773249380000109051904000000000000000000000104943367800001090519040000000000000000000000000000000000011104419840000000000000000000010657669170000112040345600000000000000000000109047876100001120403456000000000000000000001089131025000011204034560000000000000000000010912203210000111817523200000000000000000000107966895100001099720242000000000000000000001033080962000011156848640000000000000000000010639194890000112040345600000000000000000000108392424200001120403456000000000000000000001069897786000010842275840000000000000000000010840069510000110205337600000000000000000000107174821700001099431936000000000000000000001073987823000010959065190000000000000000000010507199650000)
 (.leaf 11075584000000000000000000000010878816210000111122841600000000000000000000107832328500001100480512105536513500000000001073433066000011204034560000000000000000000010907773390000112040345600000000000000000000108992779900001120403456000000000000000000001092328697000011204034560000000000000000000010824917470000112040345600000000000000000000108642358800001086467028000000000000000000000000000000000011204034560000000000000000000010308867770000112040345600000000000000000000000000000000001120403456000000000000000000000000000000000011204034560000000000000000000010587360710000112040345600000000000000000000000000000000001120403456000000000000000000000000000000000011204034560000000000000000000000000000000000))
 (.node 1 (.leaf 11204034560000000000000000000000000000000000112040345600000000000000000000000000000000001120403456000000000000000000000000000000000011204034560000000000000000000000000000000000112040345600000000000000000000000000000000001120403456000000000000000000000000000000000011204034560000000000000000000000000000000000112040345600000000000000000000105322067800001120403456000000000000000000000000000000000011204034560000000000000000000000000000000000111941789900000000000000000000000000000000001118533268000000000000000000000000000000000011159984800000000000000000000000000000000000111258493300000000000000000000000000000000001102426092000000000000000000000000000000000010779361280000000000000000000000000000000000)
 (.leaf 11091312640000000000000000000010480780220000111489843200000000000000000000105905110900001118961664000000000000000000001066679052000011167334400000000000000000000010659843830000111201484800000000001033530193105477494500001115684864000000000010174777521074865492000011204034560000000000104305965110716534880000112040345600000000001052018685104427448600981120403456102511742610298123621066512172009911204034560000000000103696616710849577200000112040345600000000000000000000108283071300001120403456000000000000000000001069764799000011204034561088177702101839043310657991100000112040345600000000000000000000108273312900001120403456000000000000000000001079914362000011204034560000000000000000000010657412990000)))))))))
 (.node 128 (.node 64 (.node 32 (.node 16 (.node 8 (.node 4 (.node 2 (.node 1 (.leaf 11204034560000000000000000000010643223010000112040345600000000000000000000107572776500001120403456000000000000000000001077383115000011204034560000000000000000000010862820970000112040345600000000000000000000107883073800001120403456000000000000000000001091079469000011160780800000000000000000000010679654780000107793612800000000000000000000000000000000001077936128000000000000000000001027559173000011036262400000000000102514158509997501640000109051904000000000000000000000104306859400001099431936000000000010887326860000000000000010905190400000000000109040117510301081770000109366476800000000000000000000105648814300001114112000000000000010983850380960364613000011112284160000000000109140183600000000000000)
 (.leaf 11020533760000000000108021657100000000000000110755840000000000001016189262108545166000001116733440000000000000000000001094815361000011160780800000000000000000000010828858220000109681049600000000000000000000000000000000001100480512000000000000000000000988421886000011036262400000000000000000000010523291950000108632473600000000000000000000000000000000001111228416000000000010413886411051263754000011167334400000000000104489843410844947650000111935488000000000001050847635109407897600001116078080000000000010517905151080323722000010779361280000000000104659628900000000000000110834483200000000000000000000103977988600001113587712000000000000000000001064561295000011204034560000000000000000000010498513660000))
 (.node 1 (.leaf 11204034560000000000102492683610383261050000112040345600000000001047475415104679887800001120403456000000000000000000001073099683000011175198720000000000000000000010563615060000111201484800000000001030000266106615348900001096810496000000000000000000000000000000000011204034561083846836107505422210908723400000110048051200000000001090152877107588582100001067343498000000000000000000001050275574000011112284160000000000000000000010351911360000111489843200000000000000000000107362721700001116733440000000000000000000001061907397000011181752320000000000000000000010619400460000111201484800000000000000000000105903558700001120403456000000000000000000001031708969000011204034560000000000000000000010604494870000)
 (.leaf 11204034561023290991000000000010430260930000112040345600000000000000000000107044521900001120403456000000000000000000001082923313000011204034561096852757000000000010782658680000112040345600000000000000000000106366926100001120403456000000000000000000000000000000000011204034560000000000000000000010573125210000112040345600000000000000000000105970341700001120403456000000000000000000000000000000000011204034560000000000000000000000000000000000112040345600000000000000000000107023899500001120403456000000000000000000001033279006000011204034560000000000000000000010595658930000112040345600000000000000000000106864079800001120403456000000000000000000001064682591000011204034560000000000000000000000000000000000)))
 (.node 2 (.node 1 (.leaf 11204034561093254981110772491400000000000000112040345600000000000000000000106292235300001120403456000000000000000000000000000000000011204034561060863214000000000010411489300000112040345600000000000000000000000000000000001120403456105528390000000000000000000000000011204034560000000000000000000000000000000000112040345609554670150000000000000000000000001120403456000000000000000000000000000000000011204034560000000000000000000010492043380000112040345600000000001058987940000000000000001120403456000000000010745530020000000000000011204034560000000000000000000000000000000000112040345600000000000000000000000000000000001120403456000000000000000000000000000000000011204034560000000000104346901510390932750000)
 (.leaf 11204034560000000000105766589600000000000000112040345610672513901076231563107599408800001120403456110718369810893037401076056841000011204034561111816551110333520810859868820000112040345611078816251085435334110149306300001120403456111548087210642241091077087479000011204034561110167161108161033810979197700000112040345610914106951091653285110735629200001120403456110181608710872267211099733272010011204034561116131199107040567510906309380000112040345611117749001091398061109212527500001120403456111641717410763989161083675477000011204034560000000000102428259110325766580000112040345600000000001045321220000000000000001120403456000000000010724013240000000000000011204034560000000000107423801000000000000000))
 (.node 1 (.leaf 11204034560000000000107647902709226067800000112040345600000000001052699840000000000000001120403456000000000010648566100000000000000011135877120000000000107745126610502941120000112040345600000000001061992740000000000000001120403456000000000010757886440000000000000011204034560000000000109682276400000000000000112040345600000000001086493137000000000000001120010240000000000010866193861071738013000011204034560000000000108697674110251532400000112040345600000000001048052551097325368900001107558400000000000010783274571088359459000011135877120000000000110308559410873273880000112040345600000000001111982054000000000000001120403456000000000011043658530000000000000011204034560000000000110178216200000000000000)
 (.leaf 11204034560000000000109542637600000000000000112040345600000000001075509723000000000000001120403456000000000011053795640955861984000011204034560000000000110131397310603913040000112040345600000000001096456916103673936600001120403456000000000010894083880000000000000011204034560000000000110778989910741374040000112040345600000000001107838501104482429000001120403456000000000011151050281054228826000011204034560000000000110112245010407391770000112040345600000000001082997604000000000000001120403456000000000010765289391057822567000011204034560000000000109824746510429131040000112040345600000000001095654126101698269400001120403456000000000011044732801074772128000011204034560000000000109844187100000000000000))))
 (.node 4 (.node 2 (.node 1 (.leaf 11204034560000000000110452628510585055680000112040345600000000000000000000103161533600001120403456000000000010829468530000000000000011204034560000000000108170974310577703440000112040345600000000001028416497000000000000001120403456000000000000000000000000000000000011204034560000000000108422150200000000000000112040345600000000000000000000103470528500001120403456000000000000000000001041418919000011204034560000000000107132003310491565440000112040345600000000001106790895104586176600001120403456000000000011076236741043332881000011204034560000000000105830846310321720270000112040345600000000001106049971000000000000001120403456000000000011096759991028579931000011204034560000000000000000000010416033710000)
 (.leaf 11204034560000000000000000000010425517630000112040345600000000000000000000000000000000001120403456000000000000000000000000000000000011204034560000000000099908992400000000000000112040345610590210751105278009105876330700001120403456104366316111116760011091337279000011204034560000000000110749999410853755270000112040345600000000001095149761108667401100001120403456000000000010608535671080222705000011204034560000000000000000000010858621340000112040345600000000000000000000108142608300001120403456000000000000000000001078179202000011204034560000000000000000000010803402500000112040345600000000000000000000105371423500001120403456000000000000000000001082911312010111204034560000000000000000000010798697800102))
 (.node 1 (.leaf 11204034560000000000000000000010912660430000112040345600000000000000000000108351547301031120403456000000000000000000001090809181010411204034560000000000000000000010849709050000111280128000000000000000000000107757595800001109917696000000000000000000001089475279000010784390670000000000000000000000000000000000108926167200000000000000000000102913211300001076698599000000000000000000000000000000000010802042400000000000000000000010347491610000109681049600000000000000000000104256463800001114898432000000000000000000001068810516000011167334400000000000000000000010844952650000111358771200000000000000000000108218725100001116078080000000000000000000001087964338000011171266560000000000000000000010629524750000)
 (.leaf 10920549830000000000000000000010407032950000110755840000000000000000000000106317614000001118568448000000000000000000001084347928010511128012800000000000000000000010946064160000110048051200000000000000000000108103609300001090519040000000000000000000001074224037000010779361280000000000000000000000000000000000108632473600000000000000000000000000000000001120403456000000000000000000001083571613000011204034560000000000000000000010674499020000112040345600000000000000000000107736065000001120403456000000000000000000001078087487000011204034560000000000000000000010775068480000110187254900000000000000000000106484272100001109353903000000000000000000001073027907000011204034560000000000000000000010863494780000)))
 (.node 2 (.node 1 (.leaf 11204034560000000000000000000010829283760000108806524600000000000000000000000000000000001077936128000000000000000000001050697614000010863247360000000000000000000010707681150000111358771200000000000000000000106332502300001116078080000000000000000000001074684243000011141120000000000000000000000010867589650000110048051200000000000000000000107912824300001100718381000000000000000000001055317820000011020533760000000000000000000010547073640000111044198400000000000000000000107782411700001120403456105845814900000000001097389683000011204034560000000000000000000010870104630000112040345600000000000000000000108417307900001120403456000000000000000000001083478943000011204034560000000000000000000010841941040000)
 (.leaf 11204034560000000000000000000010961084900000112040345600000000000000000000107684308000001116340224000000000000000000001063826753000011004805120000000000000000000010550468360000111026435500000000000000000000107019540000001120403456000000000000000000001078143465000011204034560000000000000000000010643216010000112040345600000000000000000000106566385200001120403456000000000000000000001077381054000011204034560000000000000000000010684007620000112040345600000000000000000000103273864800001120403456000000000000000000000000000000000011204034560000000000000000000000000000000000112040345600000000000000000000000000000000001120403456000000000000000000000000000000000011204034560000000000000000000000000000000000))
 (.node 1 (.leaf 11204034560000000000000000000000000000000000112040345600000000000000000000000000000000001120403456000000000000000000000000000000000011204034560000000000000000000000000000000000112040345600000000000000000000000000000000001120403456000000000000000000000000000000000011204034560000000000000000000000000000000000112040345600000000000000000000000000000000001120403456000000000000000000000000000000000011204034560000000000000000000000000000000000107565400700000000000000000000000000000000001057644941000000000000000000000000000000000010968104960000000000000000000010582207350000110913126400000000000000000000106858157600001100480512000000000000000000001051253673000011020533760000000000000000000010509420520000)
 (.leaf 11067719680000000000000000000010581030940000111201484800000000000000000000107055836900001120403456000000000000000000001076841291000011204034560000000000000000000010770076670000112040345600000000000000000000107787811500001120403456000000000000000000001044904313000011204034560000000000000000000010351782230106112040345600000000000000000000105073153601071120403456000000000000000000001049470803000011204034560000000000000000000010729474810108112040345600000000000000000000107362019000001120403456000000000000000000001079826330000011204034560000000000000000000010768744330000112040345600000000000000000000108454193400001120403456110105757310422476341050858174000011204034561085166408102107478810886780390000)))))
 (.node 8 (.node 4 (.node 2 (.node 1 (.leaf 11204034560000000000000000000010886026840000112040345600000000000000000000109345164800001115684864000000000000000000001080193766000011067719680000000000000000000010586952960000108632473600000000000000000000000000000000001120403456111470171011041850260000000000000011204034561114035566110983252510502172680000112001024011128333741110088116104301581700001112014848110248675311047237321034156474000010779361280000000000107700415400000000000000111489843200000000001100601623000000000000001116733440000000000011100263551039789087000011196170240000000000110109524010436415780000111896166410479296070000000000106306086600001119617024107024273400000000001071778423000011120148481084377130000000000010577529500000)
 (.leaf 11204034560000000000000000000010315421950000112040345600000000000000000000106556332800001120403456000000000000000000001059103983000011204034560000000000000000000010648422170000112040345600000000000000000000105560359500001120403456000000000000000000001042615200000011204034560000000000000000000000000000000000112040345600000000000000000000107362775200001120403456000000000010250342111069983186000011204034560000000000102500736710536634140000112040345600000000000000000000102454505100001120403456000000000000000000001073677988000011204034560000000000000000000010828443830109112040345600000000000000000000106911513300001120403456000000000000000000001057490923000010779361280000000000107219077010098757560000))
 (.node 1 (.leaf 10863247360000000000000000000000000000000000112040345600000000000000000000104958495700001120403456000000000000000000001051148321000011120148480000000000000000000010551537600000111935488000000000000000000000107311887400001120403456000000000000000000001070944421000011204034560000000000000000000010594314700000112040345600000000000000000000102706026800001120403456000000000000000000001065891936000011204034560000000000000000000010829789820000112040345600000000000000000000107413537801101120403456102179849000000000000000000000000011204034560000000000000000000000000000000000112040345600000000000000000000000000000000001120403456000000000000000000001059847356000011204034560000000000000000000010604051790000)
 (.leaf 11204034560000000000000000000010770624560000112040345600000000000000000000105322054200001120403456000000000000000000001049593822000011204034560000000000000000000010794069200000112040345610692511170000000000107384316800001120403456000000000000000000001042094585000011204034560000000000000000000000000000000000112040345610649279640000000000000000000000001120403456000000000000000000000000000000000011204034560000000000000000000000000000000000112040345600000000000000000000000000000000001120403456000000000000000000000000000000000011204034560000000000000000000010579564610000112040345600000000001051126137000000000000001120403456000000000010913297990000000000000011204034560000000000105976472500000000000000)))
 (.node 2 (.node 1 (.leaf 11204034560000000000000000000000000000000000112040345600000000000000000000000000000000001120403456000000000000000000000000000000000011204034560000000000000000000000000000000000112040345600000000001041744318104584813400001120403456000000000010733744030000000000000011204034560000000000107709139500000000000000112040345600000000001107484423000000000000001120403456000000000010923102180000000000000011204034561064567254110466747600000000000000112040345611050361341093643377105875553800001120403456109872646910789247251102162994011111204034561077965920109212136910988415240000112040345611037735061083996897109059339400001120403456111119215310662054991071812308000011204034561114860068106848468310900911350000)
 (.leaf 11204034561110336318107311100110890390820000112040345611089250181084330135108888464100001120403456000000000010561962120000000000000011204034560000000000106676082400000000000000112040345600000000001065824656000000000000001120403456000000000010802891330000000000000011204034560000000000107393811700000000000000112040345600000000001075821779000000000000001120403456000000000000000000000000000000000011204034560000000000108255489610481962250000112040345600000000001074238430000000000000001120403456000000000010432005800000000000000011204034560000000000110369576100000000000000112040345600000000001093143521103331156600001120403456000000000010739838351060710126000010905190400000000000000000000010472642120000))
 (.node 1 (.leaf 11204034561046521127111295547300000000000000112040345600000000001086118586000000000000001120403456000000000011028189411045541879000011204034560000000000111111564210378425860000112040345600000000001057550133104084655500001120403456000000000000000000000000000000000011204034560000000000000000000000000000000000112040345600000000001040288055000000000000001120403456000000000000000000001026033911000011204034560000000000000000000010531733050000112040345600000000001090752872000000000000001120403456000000000010772130300000000000000011204034560000000000104320729110280878450000112040345600000000001096102078106636237500001120403456000000000011035915851057574131000011204034560000000000108714010910495150760000)
 (.leaf 11204034560000000000110832572210505113000000112040345600000000001102116291000000000000001120403456000000000011050218950000000000000011204034560000000000110078554300000000000000112040345600000000001071372881000000000000001120403456000000000011009905921051842820000011204034561058661070110219231210850223510000112040345600000000001093947464000000000000001120403456000000000010575937540000000000000011204034560000000000000000000010550575780000112040345600000000001106086776109613639000001120403456000000000011061621691095709719000011204034560000000000110239379610864652690000112040345600000000000000000000106404245700001120403456000000000000000000001089059805011211204034560000000000000000000010920724160113))))
 (.node 4 (.node 2 (.node 1 (.leaf 11204034560000000000000000000010950330370114112040345600000000000000000000108843714700001120403456000000000000000000001073542789000011204034560000000000000000000010842865990000112040345600000000000000000000108399459300001120403456000000000000000000001081902014000011204034560000000000000000000010917564840000112040345600000000000000000000106787833901151112014848000000000000000000001050643729000011075584000000000000000000000010616539060000111122841600000000000000000000107709067900001115684864000000000000000000001080169213000011179130880000000000000000000010828907730000111896166400000000000000000000109319840100001114898432000000000000000000001081689208000011120148480000000000000000000010769615950000)
 (.leaf 10936647680000000000000000000010485625590000109943193600000000000000000000106704299300001120403456000000000000000000001100987441000011204034560000000000000000000010928232810000109681049600000000000000000000106913044300001102053376000000000000000000001090660821000011160780800000000000000000000000000000000000112040345600000000000000000000107742910000001120403456000000000000000000001091047752000011204034561064471087000000000010617556850000112040345609275524120000000000106401137000001120403456000000000000000000001083908313011611204034560000000000000000000010843121790000112040345600000000000000000000105799536700001107558400000000000000000000001065612950000011204034560000000000000000000010855177960000))
 (.node 1 (.leaf 11204034560000000000000000000010854600200000112040345600000000000000000000107107030100001120403456000000000000000000001090564257000011204034560000000000000000000010654385220000112040345600000000000000000000108361014100001119354880000000000000000000001090571058000011204034560000000000000000000010812441810000112040345600000000000000000000107186383200001097702835000000000000000000001045345508000010936647680000000000000000000010739243270000109943193600000000000000000000106595433700001120403456000000000000000000001087814060000011204034560000000000000000000010957734320000112040345600000000000000000000108944940900001120403456000000000000000000001085423166000011204034560000000000000000000010750981090000)
 (.leaf 11181752320000000000000000000010603487690000111568486400000000000000000000106063909300001108344832000000000000000000001041136817000011204034560000000000000000000010672912210000112040345600000000001072063264109239850100001120403456000000000010987311731090685347000011204034560000000000109059558610919450980000112040345600000000001086875448109342326100001120403456000000000010678681211084012281000011204034560000000000000000000000000000000000112040345600000000000000000000000000000000001120403456000000000000000000000000000000000011204034560000000000000000000000000000000000112040345600000000000000000000000000000000001120403456000000000000000000000000000000000011204034560000000000000000000000000000000000)))
 (.node 2 (.node 1 (.leaf 11118284900000000000000000000000000000000000110120450100000000000000000000000000000000001090519040000000000000000000001047102768000010779361280000000000000000000010257730220000110048051200000000000000000000105302948800001119617024000000000000000000001082074502000011204034560000000000103464420010864603280000112040345610892375521057608853108378874101171120403456108158309600000000001049626363000011204034560000000000000000000010826600860000112040345600000000000000000000105553351600001120403456000000000000000000001070891653000011204034560000000000000000000010454499780118112040345600000000000000000000105835098101191120403456000000000000000000000000000000012011204034560000000000000000000000000000000000)
 (.leaf 11204034560000000000000000000000000000000000112040345600000000000000000000107749722600001120403456000000000000000000001083105595000011204034560000000000107000386010760795410000112040345610859555851029758675107708054101211120403456110958433410463077201076130286000011204034561104067401103739566310759224760000112040345610904199470000000000107530736500001120403456000000000000000000001062549491000011128012800000000000000000000010467103990000108632473600000000000000000000000000000000001068366907000000000000000000000000000000000011148984321100447071110974429910607435430000112040345611064153571116009359107837952500001111228416110496624111006917481026094295000011075584001097605672109990866410513400770000))
 (.node 1 (.leaf 10968104961068214017109522746110305050560000107793612800000000001044247478000000000000001105199104000000000010774583971028367947000011099176960000000000107235434810183124730000112001024000000000001072456689106867331700001120403456000000000010859963221057267310000011204034560000000000109382887010421963630000112040345610576237181098749208105635891300001120403456000000000010450393631050050870000011204034560000000000000000000010486662190000112040345600000000000000000000103834764100001120403456000000000000000000001068828477000011204034560000000000000000000010655635360000112040345600000000000000000000106883221700001120403456000000000000000000001079637494000011204034560000000000000000000010730147150000)
 (.leaf 11204034560000000000102661798010784755280000112040345600000000000000000000107977903900001120403456000000000000000000001072113282000011204034560000000000000000000010575674350000112040345600000000000000000000105767151300001120403456000000000000000000001072273499000011204034560000000000110866981210724823970000112040345600000000001108470373106845752300001120403456000000000011062047411069009976000011204034560000000000107220838610793748090000112040345600000000000000000000107459426901221120403456107047065310508946111086386721012311204034561078714947106922539710734057490124112040345600000000000000000000106606191700001100480512000000000000000000001057870029000011204034560000000000000000000010623763320000))))))
 (.node 16 (.node 8 (.node 4 (.node 2 (.node 1 (.leaf 11204034560000000000000000000010735044820000112040345600000000000000000000106620798100001120403456000000000000000000001041433979000011204034560000000000000000000010498191360000112040345600000000000000000000105825158300001120403456000000000000000000001054400588000011204034560000000000000000000010532421980000112040345600000000000000000000106539633400001120403456000000000000000000001055748203000011204034560000000000000000000010824608560000112040345610826380541041455750107440009600001120403456000000000000000000001057936466012511204034560000000000000000000010871367780000112040345600000000000000000000106058651000001120403456000000000000000000000000000000000011204034561016407232000000000000000000000000)
 (.leaf 11204034561060829189000000000000000000000000112040345600000000000000000000000000000000001120403456000000000000000000001061064763000011204034560000000000000000000010522470200000112040345600000000000000000000107090446600001120403456000000000000000000001057578057000011204034560000000000000000000010517319760000112040345600000000000000000000104939044500001120403456000000000000000000001046036522000011204034560000000000000000000010657042670000112040345600000000000000000000105766389200001120403456000000000000000000000000000000000011204034560000000000000000000000000000000000112040345610574492850000000000000000000000001120403456000000000000000000000000000000000011204034560000000000104465013100000000000000))
 (.node 1 (.leaf 11204034560000000000109147890600000000000000112040345610551153900000000000000000000000001120403456000000000010541057700000000000000011204034560000000000105286090100000000000000112040345600000000001056142524000000000000001120403456110960783610791528960000000000000011204034561113452731108044096600000000000000112040345611158837731078598409000000000000001120403456111487923810780871231032103638000011204034561106058924110391900210804938810000112040345610834686771095046896109858348700001120403456110781449210918022871085572292000011204034561108026710108519772710803488090000112040345610146318001050230233000000000000001120403456000000000000000000000000000000000011204034560000000000108274804300000000000000)
 (.leaf 11204034561074623882105518957900000000000000112040345600000000001064755947000000000000001120403456000000000010858298081032944515000011204034561075590438109697019410581559790000112040345600000000000000000000000000000000001120403456000000000000000000000000000000000011204034560000000000000000000000000000000000112040345600000000001072840888105332862400001120403456000000000010817214871039160937000011204034560000000000108676199200000000000000112040345600000000001081693386101746203200001120403456103372601610748495400000000000012611204034560000000000108411706400000000000127112040345600000000001076203042104550353600001120403456108160928110530588720000000000000011204034561076328627107007096900000000000000)))
 (.node 2 (.node 1 (.leaf 11204034561050847501105827490900000000000000112040345610251053461062251109104663261100001120403456000000000010642811520000000000000011204034560000000000105766254010382611520000109681049600000000001065259264106630400501281086324736000000000010760524661044047390000011148984320000000000110350035810854405110000111961702410745829371110164007106632805800001120403456106965439911082034581064897667000011204034560000000000110939495500000000000000112040345609954086001098424150102452816300001120403456000000000011030315931048656180000011204034560000000000110284725300000000000000112040345600000000001098689334000000000000001120403456000000000010921915191047857758000011204034560000000000108865488200000000000000)
 (.leaf 11204034560000000000108886942010617439350000112040345600000000001090339943107696262000001120403456000000000011022374541044168762000011204034560000000000111650544010605092600000112040345610508055581100026950106057143900001120403456000000000010963225941050100801000011204034560000000000111494892110703290000000112040345600000000001113563569107304393400001120403456103779106911028451031078323870000011204034560000000000110118678010572020970000112040345600000000001092104487000000000000001120403456000000000000000000000000000000000011204034560000000000108714849700000000000000112040345600000000001106766515109239846400001120403456000000000011078894351066322770000011204034560000000000110536325910723450790000))
 (.node 1 (.leaf 11204034560000000000109920927110918376790000112040345600000000001060868666107992669900001120403456000000000000000000001080918669000011204034560000000000000000000010923124110129112040345600000000000000000000108755989401301120403456000000000000000000001083950170013111204034560000000000000000000010626936960132112040345600000000000000000000107311815101331120403456000000000000000000001080014151000011204034560000000000000000000010816387880000112040345600000000000000000000107655528901341120403456000000000000000000001087248069000011204034560000000000000000000010758460940135112040345600000000000000000000107900265001361120403456000000000000000000001086453900000011204034560000000000000000000010905979770000)
 (.leaf 11204034560000000000000000000010952076920000112040345600000000000000000000109606715701371120403456000000000000000000001092693897000011204034560000000000000000000010913338670000111568486400000000000000000000107756396300001108344832000000000000000000001065553881000011204034560000000000000000000010936128220000112040345600000000000000000000109471351300001120403456000000000000000000001090588649000011204034560000000000000000000010888996570000112040345600000000000000000000109926777400001120403456000000000000000000001092272301000011204034560000000000000000000010926847550138110913126400000000000000000000108254332801391120403456105280855600000000001081144319000011204034560000000000000000000010746624580000))))
 (.node 4 (.node 2 (.node 1 (.leaf 11204034560000000000000000000010818637930000112040345600000000000000000000106400954000001120403456000000000000000000001060578828000011204034560000000000000000000010664406880000112040345600000000000000000000108573525100001120403456000000000000000000001090117292000011204034560000000000000000000010902043650000112040345600000000000000000000108495105300001096524759000000000000000000001039929748000010821304320000000000000000000010793616370000109943193600000000000000000000000000000000001077936128000000000000000000001046059752000010905190400000000000000000000000000000000000112040345600000000000000000000108899845900001120403456000000000000000000001085551520014011204034560000000000000000000010895424080000)
 (.leaf 11204034560000000000000000000010871471320000112040345600000000000000000000107855792300001120403456000000000000000000001092363429000011204034560000000000000000000010893765060000112040345600000000000000000000105969063700001120403456000000000000000000000000000000000011204034560000000000000000000010508166550000111896166400000000000000000000105408101400001112801280000000000000000000001064961016000011091312640000000000000000000010460530180000109681049600000000000000000000000000000000001120403456000000000000000000001068289560000011204034560000000000104462328810863598710000112040345600000000001057231366108258366300001120403456000000000010906469661083742480000011204034560000000000109334799310902158220000))
 (.node 1 (.leaf 11204034560000000000110746843210850401830000112040345600000000000000000000106681379900001120403456000000000000000000000000000000000011204034560000000000000000000000000000000000112040345600000000000000000000000000000000001120403456000000000000000000000000000000000011204034560000000000000000000000000000000000112040345600000000000000000000000000000000001120403456000000000000000000000000000000000011204034560000000000000000000000000000000000112040345600000000000000000000000000000000001120403456000000000000000000000000000000000011204034560000000000000000000000000000000000112040345600000000000000000000000000000000001008981770000000000000000000000000000000000010833061160000000000000000000000000000000000)
 (.leaf 11067719680000000000000000000010597365720000112001024000000000000000000000108223623501411120403456000000000000000000001091738063014211204034560000000000000000000010875037790143112040345600000000000000000000108485741601441120403456111198666910426301551073504548000011204034560000000000000000000010692797730000112040345600000000000000000000107960994600001120403456000000000000000000001069527231000011204034560000000000000000000010664072670000112040345600000000000000000000000000000000001120403456000000000000000000001049611832000011204034560000000000000000000010674339020000112040345610699956391090940777106401344001451120403456109952869511039957061076470849014611204034561109898731107468805910833972310000)))
 (.node 2 (.node 1 (.leaf 11204034561110652545104205301810679509000000109681049610680160961094756021105748266300001116340224110304398011105224421062058985000011204034561095662939111804756810840434520000111673344010665791271112588891107831623400001120403456103410706011093231271049419692000011204034561070130939110730152510276335810000112040345600000000001064376782105038554000001120403456000000000010458178261069807928000011204034560000000000105816250110713321110000112040345600000000001042636866104041738400001120403456000000000000000000001023706888000011204034560000000000000000000010488498480000112040345600000000000000000000107428497000001120403456000000000010383351871065335686000011204034560000000000000000000000000000000000)
 (.leaf 11204034560000000000000000000010318404000000112040345600000000001087291733104538969500001120403456105898406510612662861023433278000011204034560000000000106261181910409334370000112040345600000000001049149781104399221400001120403456000000000010926191281049105404000011204034560000000000107344654510777924710000112040345600000000001085392552108262361700001051030909000000000000000000000000000000000011189616640000000000000000000010649287500000112040345600000000000000000000106936420900001120403456000000000000000000001039751926000011204034560000000000106335169410925017020000112040345600000000001052199879109841048200001120403456000000000000000000001061570555000011204034560000000000000000000010678919950000))
 (.node 1 (.leaf 11204034561081734641000000000010738447920000112040345600000000000000000000105272932401471120403456000000000000000000001078268550014811204034560000000000000000000010714669790000112040345600000000000000000000105267820800001120403456000000000000000000001072828072000011204034560000000000000000000010433718300000112040345600000000000000000000105989996100001120403456000000000000000000001033951982000011204034560000000000000000000000000000000000112040345600000000001029866049000000000000001120403456000000000000000000000000000000000011204034560000000000000000000000000000000000112040345600000000000000000000000000000000001120403456000000000000000000000000000000000011204034560000000000000000000000000000000000)
 (.leaf 11204034560000000000000000000000000000000000112040345600000000001025222115000000000000001120403456000000000010662407310000000000000011204034560000000000000000000000000000000000112040345600000000000000000000000000000000001120403456000000000010700474810000000000000011204034560000000000106624324700000000000000112040345600000000001076580529000000000000001120403456000000000010582296101020721918000011204034560000000000109635971300000000000000112040345600000000001070574286000000000000001120403456000000000010757550900000000000000011204034560000000000108665000410678671800000112040345610979635081094686291109169644000001120403456109652088610825307781030408568000011204034561110842773107744036100000000000000)))))
 (.node 8 (.node 4 (.node 2 (.node 1 (.leaf 11204034561028509644105002219600000000000000112040345600000000001086628613104923284900001120403456000000000010973941330000000000000011204034560000000000109185461100000000000000112040345600000000000000000000000000000000001120403456000000000010488175920000000000000011204034560000000000103328860100000000000000112040345600000000000978433815000000000000001120403456000000000010483142751033322891000011204034560000000000000000000010437916420000112040345600000000001025061054103157528100001120403456000000000010550855600000000000000011204034560000000000107692991400000000000000112040345600000000001091069752101575842100001120403456107012647710824275980000000000014911204034561092319903108590803200000000000000)
 (.leaf 11204034561070680301105973284900000000000000112040345600000000001073856328000000000000001120403456105354531110652626190000000000000011204034561038483901107438271410455544050000112040345600000000001082356715106276302000001120403456000000000010546627741024847146000011204034560000000000107298097710577351840000112040345600000000001050270499000000000000001120403456000000000010251147410000000000000011204034560000000000102498052310223109760000112040345600000000000000000000104616655200001120403456000000000000000000000000000000000011204034560000000000000000000010656549610000109943193600000000001021128475106643912800001120010240000000000010612713191065813968000011181752320000000000000000000010684861410150))
 (.node 1 (.leaf 11163402240000000000000000000010499551270151111791308800000000001040556491104339533301521116733440000000000000000000001034742496000010994949550000000000000000000010635681100000109196311800000000000000000000105107554600001086324736000000000010756439411051262833000011075584000000000000110458317010556049810000111896166410607464441110836747109207646801531120403456106985471111159570741083114089000011204034560000000000111642241910691252720000112040345610079703051115048064106914385300001120403456000000000011081499801069410090000011204034560000000000111708017800000000000000112040345610081549891117040607105122980400001120403456000000000000000000000000000000000011204034560000000000000000000000000000000000)
 (.leaf 11204034560000000000110436831700000000000000112040345610394524161100115450105318003500001120403456000000000000000000000000000000000011204034560000000000110023053110263979520000112040345600000000001109956677108438761900001120403456000000000011165964441081197693000011204034560000000000111525463310840819820000112040345600000000001115022531107626628900001120403456000000000011166834881075482376000011204034560000000000110743278110866208600000112040345600000000000000000000109061062800001120403456000000000000000000001077107135015411204034560000000000000000000010848939180155112040345600000000000000000000108608178901561120403456000000000000000000001088394655000011204034560000000000000000000010915554590000)))
 (.node 2 (.node 1 (.leaf 11204034560000000000000000000010838680590157112040345600000000000000000000106805137201581120403456000000000000000000001075304122015911204034560000000000000000000010612191960160112040345600000000000000000000108025253001611120403456000000000000000000001075370065000011204034560000000000000000000010991695580000112040345600000000000000000000110232378400001120403456000000000000000000001095582399016211204034560000000000000000000010973272720000112040345600000000000000000000108315290500001120403456000000000000000000001080163250000011204034560000000000000000000010849705160000112040345600000000000000000000108689500500001120403456000000000000000000001097613282016311204034560000000000000000000010920357740164)
 (.leaf 11204034560000000000000000000010932959350000112040345600000000000000000000109365652900001120403456000000000000000000001092390326016511204034560000000000000000000010894492420166112040345600000000000000000000109619049600001120403456000000000000000000001093820756000011204034560000000000000000000010978216010167112040345600000000000000000000109652592801681120403456000000000000000000001098418627000011171266560000000000000000000010917137160169112001024000000000000000000000107583227301701120403456000000000000000000001074897003000011204034560000000000000000000010856418030000112040345600000000000000000000109272491400001120403456000000000000000000001080137451000011204034560000000000000000000010853344750000))
 (.node 1 (.leaf 11204034560000000000000000000010830238030171112040345600000000000000000000109183417600001120403456000000000000000000001095490142000011193548800000000000000000000010881588510000111935488000000000000000000000108588153900001118568448000000000000000000001087343736000011175198720000000000000000000010785034120000111751987200000000000000000000107300713000001093664768000000000000000000001013785739000011204034560000000000000000000010980965620000112040345600000000000000000000108570262000001119617024000000000000000000001080591698000011196170240000000000000000000010859369060000112040345600000000000000000000106131846700001120403456000000000000000000001064416696000011204034560000000000000000000010619490250000)
 (.leaf 11204034560000000000000000000010730702020000111791308800000000000000000000105729714900001117519872000000000000000000001040467914000011189616640000000000000000000010481876630000111568486400000000000000000000106374982900001090519040000000000000000000000000000000000011204034560000000000000000000010425288800000112040345600000000000000000000107755643300001120403456000000000000000000001081858562000011204034560000000000106270744910897557450000112040345600000000001090746896109246676600001120403456000000000010864243511090679399000011204034561066084417108249743410906196090000112040345600000000000000000000000000000000001120403456000000000000000000000000000000000011204034560000000000000000000000000000000000))))
 (.node 4 (.node 2 (.node 1 (.leaf 11204034560000000000000000000000000000000000112040345600000000000000000000000000000000001120403456000000000000000000000000000000000011204034560000000000000000000000000000000000108968473000000000000000000000000000000000001053524574000000000000000000000000000000000011051991040000000000000000000000000000000000112040345600000000001041818137107341015201721120403456000000000010256516121057555041000011204034560000000000104417365910830340270000112040345600000000000000000000108558451701731120403456000000000000000000001087700230017411204034560000000000000000000010658352560000112040345610664985460000000000106591971500001120403456000000000000000000001087613449000011204034560000000000000000000010830036370000)
 (.leaf 11204034560000000000000000000010606169700000112040345600000000000000000000105772153100001120403456000000000000000000001066670552000011204034560000000000000000000010854482540000111044198410760175530000000000104552071700001110441984110256133010457574281057539393000011200102400989902452110627211210803241540175112040345611163554821045730584106863415500001120403456110082592410265911361045145417000011204034561090168631111036292110464566940000112040345610693387111111591459105658841000001120403456000000000000000000001052851956000011020533760000000000000000000010493058990000108632473600000000000000000000105471990400001096448842000000000000000000001047637189000011204034561109582312111377952310749878380000))
 (.node 1 (.leaf 11163402241109589200110498619510596356590000111751987211102010061107949021104570028900001120403456101203119710944891581052936566000011204034561054907621110133164110438506130000112040345600000000001075625905103387480900001120403456000000000000000000001046236546000011204034560000000000000000000000000000000000112040345600000000000000000000106378399600001120403456000000000000000000001051152903000011204034560000000000000000000010674964930000112040345600000000000000000000100381075300001120403456103319451410580802930000000000000011204034561058298497000000000010492635410000112040345600000000000000000000104749643400001120403456000000000010803667271042071232000011204034560000000000108754863410411973170000)
 (.leaf 11204034561082553851107954632110522526850000111817523200000000001093666655106830061200001118175232000000000010872118311073624892000011181752320000000000109186729910533076020000110205337600000000001025705299105410068300001100480512000000000010837687271050541109000011204034560000000000106034689510507256750000112040345600000000001058565154106170683300001120403456000000000000000000001065308486000011204034560000000000102997342310708951070000112040345600000000000000000000105955317100001120403456000000000010778727941063336981000011204034561040927267111150374610714904310000112040345611109961171067383259105822067000001120403456111121697310737057531078157754000011204034560000000000000000000010839385500176)))
 (.node 2 (.node 1 (.leaf 11204034560000000000000000000010821612420177112040345610841429301088825799107971185100001120403456000000000000000000001083574967017811204034560000000000000000000010764214040179112040345600000000000000000000105775938101801120403456000000000000000000001051461017000011204034561048128048000000000010404517580000112040345600000000000000000000103298642300001120403456000000000000000000001079865685000011204034560000000000000000000010454671500000112040345600000000000000000000107048341700001120403456000000000000000000000000000000000011204034560000000000000000000000000000000000112040345600000000000000000000104088673800001120403456000000000010575216121070453479000011204034560000000000105063288710673838480000)
 (.leaf 11204034560000000000103355703600000000000000112040345600000000000000000000104383302400001120403456000000000000000000000000000000000011204034560000000000000000000000000000000000112040345600000000000000000000000000000000001120403456000000000000000000000000000000000011204034560000000000000000000000000000000000112040345600000000000000000000000000000000001120403456000000000010383888740000000000000011204034560000000000102511474100000000000000112040345600000000000000000000000000000000001120403456000000000000000000000000000000000011204034560000000000000000000000000000000000112040345600000000000000000000000000000000001120403456000000000000000000000000000000000011204034560000000000000000000010257106020000))
 (.node 1 (.leaf 11204034560000000000000000000010856049700000112040345600000000001070074325000000000000001120403456000000000010807337291065345868000011204034560000000000104303951910549130460000112040345600000000000000000000103082921300001120403456000000000000000000000000000000000011204034560000000000000000000000000000000000112040345600000000001035865581000000000000001120403456000000000010406571540000000000000011204034560000000000105108922700000000000000112040345600000000001025007367106840821700001120403456000000000010845520131033024591000011204034560000000000109378608810437022370000112040345600000000001094084828000000000000001120403456000000000010853101340000000000000011204034560000000000108024677000000000000000)
 (.leaf 11204034561062436547107224781300000000000000112040345611029125331102923065108917925100001120403456109386684910924552361089322860000011204034561084701761108316369910832786030000112040345600000000001051652941000000000000001120403456000000000010708846640000000000000011204034560000000000109844333900000000000000112040345600000000001087827345000000000000001120403456000000000000000000000000000000000011204034560000000000108895099900000000000000112040345600000000001082598097102756242900001120403456000000000010718191551043237527000011204034560000000000106793942400000000000000112040345600000000001042435539000000000000001120403456000000000010751297190000000000000011204034560000000000105953823310525784400000)))))))
 (.node 32 (.node 16 (.node 8 (.node 4 (.node 2 (.node 1 (.leaf 11204034560000000000104199262000000000000000112040345600000000001050122859103162139900001118568448000000000010544782251059768275000011156848640000000000106735809310292525640000112040345600000000000000000000000000000000001120403456000000000000000000000000000000000011204034560000000000000000000010648133830000112040345600000000000000000000105277536800001120403456000000000000000000001041488772000011204034560000000000000000000010319386390000112040345600000000001051069094104114075500001120403456000000000010333959750000000000000011204034560000000000103002711000000000000000111044198400000000000000000000108200245000001103626240000000000000000000000000000000000010089817700000000000000000000000000000000000)
 (.leaf 11020533760000000000109336623810773937080000110913126400000000001106189484107409929800001119354880000000000011162334401082332041000011167334400000000000110797822410465867380181112040345600000000001109552267102586924800001120403456000000000011088650831039323656000011204034561053458975110848151410636983440000112040345610508088131112890383105574719400001120403456000000000011087174171057526234000011204034561050916489110981092510657777720000112040345600000000001092209554000000000000001120403456000000000011024939351058946167000011204034560000000000000000000000000000000000112040345600000000000000000000000000000000001120403456000000000010249536800000000000000011204034560000000000103563741100000000000000))
 (.node 1 (.leaf 11204034560000000000108856134910463756880000112040345600000000001100869481103327799000001120403456000000000011079686031059939706000011204034561043326678109981865110490283020000112040345610574841821105884139106610980600001120403456000000000010432475561079443633018211204034560000000000000000000010964530380000112040345600000000000000000000109387812800001120403456000000000000000000001096166060000011204034560000000000000000000010876675530000112040345600000000000000000000108762159300001120403456000000000000000000001090644671000011204034560000000000000000000010850564250000112040345600000000000000000000109181494200001120403456000000000000000000001082183891000011204034560000000000000000000010922476180000)
 (.leaf 11204034560000000000000000000010865546240000112040345600000000000000000000109292606001831120403456000000000000000000001088822969018411204034560000000000000000000010954615320000112040345600000000000000000000109481691901851120403456000000000000000000001093383608018611204034560000000000000000000010969760300187112040345600000000000000000000109491427901881120403456000000000000000000001094028308018911204034560000000000000000000010980390240190112040345600000000000000000000107240159200001120403456099220025900000000001092345542000011204034560000000000000000000010919641360000112040345600000000000000000000109127965400001120403456000000000000000000001088924571000011204034560000000000000000000010823344260000)))
 (.node 2 (.node 1 (.leaf 11204034560000000000000000000010823024370000112040345600000000000000000000107546856100001120403456000000000000000000001087438780000011204034560000000000000000000010957058600000112040345600000000000000000000109119806300001105199104000000000000000000001075500168000011128012800000000000000000000010635423080000111358771200000000000000000000107863973100001106771968000000000000000000001049826161000010994319360000000000000000000010598109530000109943193600000000000000000000106922817800001120403456000000000000000000001062384810000011204034560000000000000000000010795064250000112040345600000000000000000000108589485801911120403456000000000000000000001101223850019211075584000000000000000000000010745227520000)
 (.leaf 11196170240000000000000000000010746139650000112040345600000000000000000000106242369400001120403456000000000000000000001028242722000011148984320000000000000000000010649867110000110519910400000000000000000000000000000000001120403456000000000000000000001042130106000011204034560000000000000000000010782214620000112040345600000000000000000000000000000000001120403456000000000000000000001068284648000011204034561074781701000000000010668800560000112040345610722647750000000000108302278400001120403456108428591600000000001086518552000011204034561076760649000000000010901104470000112040345600000000000000000000106765853700001120403456000000000000000000000000000000000011204034560000000000000000000000000000000000))
 (.node 1 (.leaf 11204034560000000000000000000000000000000000112040345600000000000000000000000000000000001120403456000000000000000000000000000000000011204034560000000000000000000000000000000000112040345600000000000000000000000000000000001120403456000000000000000000000000000000000010905190400000000000102766487800000000000000110677196800000000001073263673103760603300001114898432000000000010660922521036304665000010968104960000000000103638903010547453150000109366476800000000000000000000105536464000001100480512000000000000000000001015930359000011036262400000000000000000000010443494100000109943193600000000001025087898000000000000001103626240000000000000000000001038580560000011204034560000000000000000000010582410380000)
 (.leaf 11099176960000000000000000000000000000000000108632473600000000000000000000000000000000001008981770000000000000000000000000000000000010089817700000000000000000000000000000000000108632473600000000000000000000000000000000001120403456000000000000000000001077129462000011204034560000000000000000000010517424560000112040345600000000000000000000107034586400001120403456000000000000000000001059717691000011204034560000000000000000000010809857500000112040345600000000000000000000106855826000001120403456000000000000000000001084619118000011204034560000000000000000000010782922200000112040345600000000000000000000108170834101931120403456000000000000000000001090696734019411204034560000000000000000000010838491010195))))
 (.node 4 (.node 2 (.node 1 (.leaf 11204034560000000000000000000010890997220196112040345600000000000000000000108967793101971120403456000000000000000000001083338215019811099176960000000000108816079310668327160000108632473600000000001076314610000000000000001077936128000000000010376640990000000000000010994319360000000000109551854610283529370000110677196800000000001093327022105260267300001112801280107578462610649539181079601849000011171266561102880200104254962410801319620000111817523211034321591064658639109071256300001116733440000000000011032492771044044329000011135877120000000000109185125610591573270000110362624000000000000000000000000000000000001073232635000000000000000000000000000000000011196170240000000000110498058110874475120000)
 (.leaf 11104419841040621251110010229110448306650000112040345610990005271114627375107454705000001120403456109177843311138137061068942351000011204034561107202871110619037510606020130000112040345610745128881109215779107555842200001120403456108097941910540487281080179369000011204034560000000000103440260810660538970000112040345600000000000000000000106598304100001120403456000000000000000000000000000000000011204034560000000000109637848310256979710000112040345600000000001063235931104384759600001120403456000000000010333691311038328001000011204034560000000000105665255210354035710000112040345610656217520000000000105364923700001120403456000000000010617192711045215862000011204034560000000000107048117210745612880000))
 (.node 1 (.leaf 11204034560000000000110899757110824810490000112040345600000000001100270954107485109200001120403456000000000010945240761044654885000011204034561064832418111195856610139155160000111935488000000000001111047773106301507000001117519872000000000010897061841026968678000011160780801103242282108360577800000000000000112040345600000000001102759487104522099100001120403456106094114411106774161065509149000011204034561027324770111305453710757437090000112040345600000000001113893188106682227900001120403456000000000011080120661050440006000011204034561058863806111085826910615998740000112040345600000000001118131729108168187600001120403456110117674010770695851086092004000011204034561114670065106417042210805068480000)
 (.leaf 11204034561117353316105699312910802418980000112040345610767513421007049035106107332700001120403456000000000000000000000000000000000011204034560000000000000000000000000000000000112040345600000000000000000000000000000000001120403456000000000000000000000000000000000011204034560000000000000000000000000000000000112040345600000000000000000000000000000000001120403456000000000000000000000000000000000011204034560000000000105767428410526354150000112040345600000000000000000000000000000000001120403456000000000000000000000000000000000011204034560000000000000000000000000000000000112040345600000000000000000000000000000000001120403456000000000000000000000000000000000011204034560000000000104377100500000000000000)))
 (.node 2 (.node 1 (.leaf 11204034560000000000108571006100000000000000112040345600000000001067153411000000000000001120403456000000000010251415851046852850000011204034560000000000000000000010488591050000112040345610748107421100971350000000000000001120403456000000000000000000000000000000000011204034560000000000000000000010777449430000112040345600000000001103563692108293081600001120403456000000000010242825911082959853000011204034560000000000107408701500000000000000112040345610251705761080806710104556282300001120403456000000000000000000001048869162000011204034560000000000103440260810657891640000112040345600000000000000000000000000000000001120403456000000000000000000000000000000000011204034560000000000000000000000000000000000)
 (.leaf 11204034560000000000103351677100000000000000112040345600000000001024980523000000000000001120403456000000000010664479291045310670000011204034560000000000106182161210641730180000112040345600000000001076870775000000000000001120403456000000000010644690570000000000000011204034561027697896108945913900000000000000112040345600000000001088645235000000000000001120403456000000000010922235000000000000000011204034560984958408108228667000000000000000112040345610581259771051300620106945434000001120403456108031641610344160301077231478000011204034560000000000106578103500000000000000112040345600000000001052199879000000000000001120403456000000000010735849570000000000000011204034560000000000106624576400000000000000))
 (.node 1 (.leaf 11204034560000000000108893988500000000000000112040345600000000001083572853000000000000001120403456000000000010581591460000000000000011204034560000000000108009787200000000000000112040345610758757431065357410103239030000001120403456000000000010830062031034319958000011204034560000000000104032832100000000000000112040345600000000001081709743000000000000001120403456000000000010489618760000000000000011204034560000000000104023436800000000000000112040345600000000001101439382000000000000001120403456000000000010905373900000000000000011204034560000000000104058333400000000000000112040345600000000001045307798000000000000001120403456000000000010358790030000000000000011204034560000000000110906017100000000000000)
 (.leaf 11204034560000000000107925481700000000000000112040345600000000001059764725105030869200001120403456000000000010642996070000000000000011204034560000000000106870278700000000000000112040345600000000001066517555106148381000001120403456000000000010417644501044590023000011179130880000000000000000000010653360770000111961702400000000001094443126108235930000001120403456000000000010741767731058875466000011196170240000000000000000000010619930790000111856844800000000000000000000107193565300001120403456000000000010242020610000000000000011204034560000000000101806831000000000000000112040345600000000000000000000000000000000001119354880000000000010701506611054368008000011204034560000000000106232157310271000890000)))))
 (.node 8 (.node 4 (.node 2 (.node 1 (.leaf 11193548800000000000105775649310677992250000111791308800000000001042415406105062741000001093664768000000000000000000000000000000000010779361280000000000107700415410260813770000110677196800000000001099855770103053820400001116078080000000000011095782981056513887000011200102400000000000111245582710724767830000112040345600000000001108993927000000000000001120403456000000000011090558451015108865000011204034560000000000110835982710281417770000112040345600000000001099847225000000000000001120403456000000000011110104431040411478000011204034560000000000111375632310517356950000112040345600000000001110919217108599685800001120403456000000000011163820881055106339000011204034560000000000110838858400000000000000)
 (.leaf 11204034560000000000111652597910661550740000112040345610441222531117055812103353719000001120403456000000000011100312830000000000000011204034560000000000110990998910269421660000112040345600000000001088576658000000000000001120403456000000000010961191700000000000000011204034560000000000110591470510450506650000112040345600000000001089875005000000000000001120403456000000000000000000000000000000000011204034561032757635000000000000000000000000112040345600000000001044408540000000000000001120403456000000000010895212150000000000000011204034560000000000110173398000000000000000112040345600000000001106304618000000000000001120403456000000000011072358581009475662000011204034560000000000109458531300000000000000))
 (.node 1 (.leaf 11204034560000000000000000000000000000000000112040345600000000000000000000000000000000001120403456000000000000000000000000000000000011204034560000000000000000000010536413300000112040345600000000001079069848000000000000001120403456000000000011075105851085870930000011204034560000000000110759856010801212650199112040345600000000001107821121106638552602001120403456000000000011049166701071959250020111204034560000000000000000000010930666540000112040345600000000000000000000106774429302021120403456000000000000000000000000000000020311204034560000000000000000000010991883680000112040345600000000000000000000109716030500001120403456000000000000000000001099010788000011204034560000000000000000000010946775790204)
 (.leaf 11204034560000000000000000000010890893060205112040345600000000000000000000109273580802061120403456000000000000000000001098362182000011204034560000000000000000000010936451930000112040345600000000000000000000107872203200001120403456000000000000000000001090736568000011204034560000000000000000000010914013270000112040345600000000000000000000108589114200001120403456000000000000000000001083407723000011204034560000000000000000000010905643030000112040345600000000000000000000108076974500001120403456000000000000000000000000000000000011204034561071708627000000000010771515420000112040345600000000000000000000108288814000001120403456000000000000000000001078658149000011204034560000000000000000000010805426470000)))
 (.node 2 (.node 1 (.leaf 11204034560000000000000000000010884589380000112040345600000000000000000000108887980000001116340224000000000000000000001081473249000011160780800000000000000000000010740437810207111489843200000000000000000000107667255302081108344832000000000000000000001078058329000011020533760000000000000000000000000000000000110755840000000000000000000000105639847700001086324736000000000000000000001047085436000011204034560000000000000000000010789226950209112040345600000000000000000000109271691402101120403456000000000000000000001076630363000011204034560000000000000000000010901372720000112040345600000000000000000000109728616600001102053376000000000000000000001069395759000010965132240000000000000000000010289497710000)
 (.leaf 11141120000000000000000000000000000000000000112040345600000000000000000000107290495600001120010240000000000000000000001069348857000011156848640000000000000000000010646625760000109681049600000000000000000000102660066900001108770658000000000000000000001066443402000011204034560000000000000000000010658569200000112040345600000000000000000000104061876400001120403456000000000000000000001073728196000011204034560000000000000000000010611773720000112040345600000000000000000000000000000000001120403456000000000000000000000000000000000011204034560000000000000000000000000000000000112040345600000000000000000000000000000000001118318035000000000000000000000000000000000011179877460000000000000000000010685961400000))
 (.node 1 (.leaf 11180120740000000000000000000010318470260000111120097000000000000000000000107087358200001115558511000000000000000000001073618643000011127406720000000000000000000010367049590000110885837200000000000000000000102826587900001099289749000000000000000000000000000000000011020533760000000000000000000010411419950000112040345600000000001052149547105402941900001118175232000000000010673186671057805417000011200102400000000000106755270910639135170000112001024000000000001069731231106348526900001120010240000000000010727695841066683461000011200102400000000000106478614610493556450000111961702400000000001061774636107453150700001120403456000000000010404692491073999186000011204034560000000000000000000010541488390000)
 (.leaf 10863247360000000000106178805800000000000000100898177000000000000000000000000000000000001008981770000000000000000000000000000000000010936647680000000000000000000000000000000000109051904000000000000000000000000000000000001119354880000000000000000000001059926957000011204034560000000000000000000010754637630211112040345600000000000000000000108339835500001120403456000000000000000000001081148041021211204034560000000000000000000010860913670000112040345600000000000000000000107413371900001120403456000000000000000000001072741293000011204034560000000000000000000010877193160000112040345600000000000000000000109522567900001120403456000000000000000000001095103960000011204034560000000000000000000010888119590213))))
 (.node 4 (.node 2 (.node 1 (.leaf 10936647680000000000000000000000000000000000111935488000000000000000000000105742908500001120403456000000000000000000001066878537000011204034560000000000000000000010740494700000112040345600000000001074667926107656583000001120403456000000000010621689001063815960000011204034560000000000108595228210583737550000112040345610730225931032053798104287299100001120403456000000000010697916280000000000000011204034560000000000109747917310483250950000112040345610821530350000000000103790511800001120403456108232922710540453720000000000000011204034561057338438104483132500000000000000112040345600000000000000000000105020081800001120403456000000000000000000000000000000000011204034560000000000000000000010280881660000)
 (.leaf 11204034560000000000000000000000000000000000112040345600000000001049233667000000000000001120403456000000000010939422211051260223000011204034560000000000110732771310498786440000112040345610756781921090192304106430789800001120403456108864645310994132191080228116000011204034560000000000110661494410641452740000112040345610868030751099196059103865138000001120403456106454141711183162131064705637000011204034561099032306111695560710663551890000112040345600000000001109364703105457606200001120403456000000000010899867831053043712000011204034561117910972100402913610568352150000112040345611199362841043683764105650616900001120403456000000000000000000000000000000000011204034560000000000000000000010702658570000))
 (.node 1 (.leaf 11204034560000000000000000000009983129940000112040345600000000000000000000000000000000001120403456000000000010847835391061348623000011204034560000000000107639052700000000000000112040345600000000001033557036105002804900001120403456000000000000000000001064439323000011204034560000000000000000000010831602930000112040345600000000001051941510106753783800001120403456000000000000000000000000000000000011204034560000000000000000000000000000000000112040345600000000000000000000000000000000001120403456000000000010668413551065826888000011204034560000000000000000000000000000000000112040345600000000000000000000105736457300001120403456000000000000000000001064655244000011204034560000000000000000000010943563470000)
 (.leaf 11204034560000000000000000000010706590500000112040345600000000001038684153000000000000001120403456000000000010491497811025623091000011204034560000000000102487314900000000000000112040345600000000000000000000000000000000001120403456000000000000000000000000000000000011204034560000000000102503421100000000000000112040345600000000000000000000000000000000001120403456000000000010829619530000000000000011204034560000000000108240494900000000000000112040345610581981191079196516000000000000001120403456000000000000000000000000000000000011204034560000000000000000000000000000000000112040345600000000000000000000000000000000001120403456000000000010827331530000000000000011204034560000000000108434670200000000000000)))
 (.node 2 (.node 1 (.leaf 11204034560000000000000000000010447411180000112040345600000000001066108191000000000000001120403456000000000010670334540000000000000011204034560000000000105636062800000000000000112040345600000000001033986533000000000000001120403456000000000010520253960000000000000011204034560000000000106081330100000000000000112040345600000000001096715495000000000000001120403456000000000011059894680000000000000011204034560000000000109195254800000000000000112040345610572362481100602199000000000000001120403456000000000010735740520000000000000011204034560000000000108659317100000000000000112040345600000000001091781106000000000000001120403456000000000010864610510000000000000011204034560000000000108170596810680419880000)
 (.leaf 11204034560000000000106309668000000000000000112040345600000000001056853878000000000000001120403456000000000000000000000000000000000011204034561106322392108283780110489096220000112040345600000000001088006862102889749200001120403456000000000010945417970000000000000011204034561053301236107431350810506428980000112040345600000000001058857078106315735700001120403456000000000010298660491059760464000011204034560000000000000000000010658623390000111673344010761739751088758271108336124100001093664768000000000010349931661033935431000010779361280000000000000000000000000000000000112040345600000000001042925434000000000000001120403456000000000010665427210000000000000011204034560000000000103853651410350172990000))
 (.node 1 (.leaf 11204034560000000000107511210310395251780214107793612800000000001072237747000000000000001100480512000000000010635580540000000000000011204034560000000000110389776900000000000000112040345600000000001109069005106679984300001120403456000000000011088510841069339947000011204034561057079582111176672900000000000000112040345600000000000000000000000000000000001120403456000000000000000000000000000000000011204034560000000000109389419600000000000000112040345600000000001100329202104924990500001120403456000000000010973074160000000000000011204034560000000000109202710200000000000000112040345600000000000000000000000000000000001120403456000000000000000000000000000000000011204034560000000000000000000000000000000000)
 (.leaf 11204034560000000000000000000000000000000000112040345600000000000000000000000000000000001120403456000000000000000000000000000000000011204034560000000000000000000010345272670000112040345600000000000000000000000000000000001120403456000000000000000000001033131890000011204034560000000000000000000000000000000000112040345600000000001074849540104040975600001120403456000000000011003374340000000000000011204034561054090000110389887010497677350000112040345600000000001074924618107568123102151120403456000000000000000000001086416502021611204034560000000000000000000010988065810000112040345600000000000000000000109622742000001120403456000000000000000000001086415456000011204034560000000000000000000010992988190217))))))
 (.node 16 (.node 8 (.node 4 (.node 2 (.node 1 (.leaf 11204034560000000000000000000010980393420218112040345600000000000000000000109942256302191120403456000000000000000000001097976557022011204034560000000000000000000010991930960221112040345600000000000000000000109575459102221120403456000000000000000000001090851156000011204034560000000000000000000010937116820223112040345600000000000000000000108835527802241120403456000000000000000000001086511880000011204034561055227529000000000010865291660000112040345600000000000000000000108826686302251120403456000000000000000000001091318947022611204034560000000000000000000010925275150227112040345600000000000000000000108748091800001120403456000000000000000000001095115482000011204034560000000000000000000010973269860228)
 (.leaf 11204034560000000000000000000010952114010229112040345600000000000000000000109058823402301120403456106897846200000000001084142364023111204034561061161278000000000010821519280000112040345600000000000000000000107664102700001120403456000000000000000000001084936806000011204034560000000000000000000010857197640000112040345600000000000000000000107567796800001120403456000000000000000000001066615368000011204034560000000000000000000010838054460000112040345600000000000000000000108355819500001120403456000000000000000000001086150903000011204034560000000000000000000010788330190232112001024000000000000000000000107676856200001116340224000000000000000000001048014674000011075584000000000000000000000000000000000000))
 (.node 1 (.leaf 11020533760000000000000000000010571046610000111856844800000000000000000000107654167800001118175232000000000000000000001083185727000011160780800000000000000000000010835110030000111568486400000000000000000000108303496702331114112000000000000000000000001083957013023411200102400000000000000000000010888584490000112040345600000000000000000000107039472400001120403456000000000000000000001084112999023511204034560000000000000000000010914236640236112040345600000000000000000000107947094000001120403456000000000000000000001084311604000011204034560000000000000000000010761690460000112040345600000000000000000000109499869600001090519040000000000000000000000000000000000010863247360000000000000000000000000000000000)
 (.leaf 11099176960000000000000000000010427179440000111568486400000000000000000000106031267300001118568448000000000000000000001082970622000011204034560000000000000000000010737362920000112040345600000000000000000000109159053200001120403456000000000000000000001093626003000011204034560000000000000000000010982799690000112040345600000000000000000000109306579602371120403456000000000000000000001054506368000011204034560000000000000000000010372755360000112040345600000000000000000000000000000000001120403456000000000000000000000000000000000011204034560000000000000000000000000000000000112040345600000000000000000000000000000000001120403456000000000000000000000000000000000011204034560000000000000000000000000000000000)))
 (.node 2 (.node 1 (.leaf 11204034560000000000000000000000000000000000112040345600000000000000000000000000000000001120403456000000000000000000000000000000000011204034560000000000000000000000000000000000110335969200000000000000000000103668235300001086324736000000000000000000000000000000000010994319360000000000000000000000000000000000107793612800000000000000000000000000000000001119354880000000000010352347581050415394000011171266561095527121105167643010385535440000112040345611138271941043039519106670523200001120403456110156352400000000001036933135000011204034560000000000000000000010745748370000112040345600000000001065682888105154060000001120403456000000000010501564141056633736000011204034560000000000000000000010628325520000)
 (.leaf 11204034560000000000000000000010689558480000111607808000000000001066947890000000000000001090519040000000000000000000000000000000000011196170240000000000000000000010666295280000112040345600000000000000000000107972986700001120403456000000000000000000001070290406023811204034560000000000000000000010617875020000112040345600000000000000000000107916138202391090519040000000000000000000001038519907000011204034560000000000000000000010761337600000112040345600000000000000000000106874995202401120403456000000000011028911881083591353024110994319360000000000000000000010598040900000108632473600000000000000000000000000000000001106771968000000000010528676121061689000000010905190400000000000101059238300000000000000))
 (.node 1 (.leaf 11020533760000000000000000000010458636650000111896166400000000001093485671106683733900001120403456000000000010754325481050731746000011204034560000000000000000000010650748790000112040345600000000000000000000105506531900001120403456107696138011055243720000000000000011204034561023752700109446514610461058990000112040345600000000001090332813106576746900001120403456106320267910962680681042867482000011204034560000000000000000000010294347700000112040345600000000001081325126105246545500001120403456000000000000000000001035014189000011204034560000000000107655452410739546410000112040345600000000001098026739103876986000001120403456000000000000000000001042423604000011204034561039035401000000000000000000000000)
 (.leaf 11204034560000000000000000000000000000000000112040345600000000000000000000000000000000001120403456000000000010325772470000000000000011204034560000000000108227807200000000000000112040345600000000001085222683000000000000001120403456102854776211091844011070164728000011204034560000000000108925068200000000000000112040345600000000000000000000102910056800001120403456000000000010418919571040152175000011204034560000000000111069872810589914790000112040345600000000001104016782105180544100001120403456111832630210746285000000000000000011204034561111097181110985525310667484600000112040345611162736291105859078105202830700001120403456108830089311111494841068381618000011204034561049806038111808363910681204230000))))
 (.node 4 (.node 2 (.node 1 (.leaf 11204034560000000000111533364310696044830000112040345600000000001116787782107620674100001120403456111690358610661350341050593388000011204034561112406072106542871310501231750000112040345611133351681082366781106580635400001120403456111340826210829246231061089033000011204034560000000000000000000000000000000000112040345610877449021058422548000000000000001120403456000000000000000000001039261727000011204034560000000000000000000000000000000000112040345600000000001030966634000000000000001120403456000000000000000000001043082337000011204034560000000000000000000000000000000000112040345600000000000000000000000000000000001120403456000000000000000000000000000000000011204034560000000000110200493200000000000000)
 (.leaf 11204034560000000000000000000010669516810000112040345600000000000000000000000000000000001120403456000000000000000000000000000000000011204034560000000000000000000000000000000000112040345600000000000000000000106820448200001120403456000000000010449252781050364131000011204034560000000000109229616710556298920000112040345600000000001093074525106072596600001120403456000000000000000000000000000000000011204034560000000000000000000000000000000000112040345600000000000000000000000000000000001120403456000000000000000000000000000000000011204034560000000000000000000010757427210000112040345600000000001095956745108245778500001120403456000000000010808708831088351807000011204034560000000000000000000010787596520000))
 (.node 1 (.leaf 11204034560000000000000000000000000000000000112040345600000000001053495080000000000000001120403456000000000010182293721039486117000011204034560000000000000000000000000000000000112040345600000000001058271553000000000000001120403456000000000000000000001080122648000011204034560000000000000000000000000000000000112040345600000000000000000000105533659800001120403456000000000000000000001047130057000011204034560000000000000000000010605308640000112040345600000000001073048086107070694500001120403456000000000010756410050000000000000011204034560000000000106770286510654608760000112040345600000000001041764450100202373200001120403456000000000010662826740000000000000011204034560000000000107270079800000000000000)
 (.leaf 11204034560000000000106673314200000000000000112040345600000000001076749559000000000000001120403456000000000011034300510000000000000011204034560000000000110946274500000000000000112040345600000000001071294028000000000000001120403456000000000010672465250000000000000011204034560000000000106943007900000000000000112040345600000000001109692724000000000000001120403456101390272911162861960000000000000011204034561026249955108776338200000000000000112040345600000000001100629200000000000000001120403456000000000010989471791050062699000011204034560000000000109064182810630841950000112040345610811069671094348649104224640200001120403456101808978510858677670000000000000011204034560000000000109617432500000000000000)))
 (.node 2 (.node 1 (.leaf 11204034560000000000108663868000000000000000112040345600000000001074903227000000000000001120403456000000000010824993211042273670000011204034560000000000000000000010429608930242112040345610633014631035583724106953400800001120403456000000000010880217511077587238000011204034560000000000110100920410304225830000109681049600000000000000000000000000000000001110441984000000000010160818881045799632000011141120000000000000103711380610898732300000112040345600000000001033382553000000000000001120010240000000000000000000000000000000000011163402240000000000104473066200000000000000108632473600000000001074282050103544524000001117126656000000000011040231781066699313000011196170240000000000109165779410528141990000)
 (.leaf 11204034560000000000109121403610511474610000112040345600000000001099059115105456044100001118961664000000000010915989681046536972000011181752320000000000110132204710252795900000112001024000000000001097441948000000000000001117126656000000000011021375771046437969000011112284160000000000110837788810675059230000112040345600000000001067924324000000000000001120403456000000000000000000000000000000000011204034560000000000109183217210351335080000112040345600000000001093540197000000000000001120403456000000000011082633051028275656000011204034560000000000110571269710398396470000112040345600000000000000000000000000000000001120403456000000000010615246550000000000000011204034560000000000103585215900000000000000))
 (.node 1 (.leaf 11204034560000000000000000000000000000000000112040345600000000000000000000000000000000001120403456000000000000000000000000000000000011204034560000000000000000000000000000000000112040345600000000000000000000000000000000001120403456000000000000000000001031378833000011204034560000000000000000000010089875930000112040345600000000000000000000000000000000001120403456000000000000000000000000000000000011204034560000000000000000000000000000000000112040345600000000000000000000000000000000001120403456000000000000000000001033317084000011204034560000000000000000000010419776270000112040345600000000001067923485107696131900001120403456000000000011075604451083003818000011204034560000000000110736556710874830680000)
 (.leaf 11204034560000000000110744937410858591960000112040345600000000000000000000108526347500001120403456000000000000000000001084065730000011204034560000000000000000000010855788660243112040345600000000000000000000109630367600001120403456000000000000000000001099372729000011204034560000000000000000000011000795430000112040345600000000000000000000109645503500001120403456000000000000000000001096665092024411204034560000000000000000000010959709150000112040345600000000000000000000108491598900001120403456000000000000000000001084901728000011204034560000000000000000000010832807520000112040345600000000000000000000108427382002451120403456106286493700000000001087908506000011204034561052718462000000000010946340770246)))))
 (.node 8 (.node 4 (.node 2 (.node 1 (.leaf 11204034560000000000000000000010888001780247112040345600000000000000000000109341077700001120403456000000000000000000001094347014000011204034560000000000000000000010868657600000112040345600000000000000000000107637646300001120403456000000000000000000001083450874000011204034560000000000000000000010895660300000111896166400000000000000000000107835999800001103626240000000000000000000001070806496000011204034560000000000000000000010907746880000112040345600000000001059454347108641751700001120403456000000000000000000001083218234000011204034560000000000000000000000000000000000111935488000000000000000000000106069303600001114898432000000000000000000001059529362000011099176960000000000000000000010631208760000)
 (.leaf 11204034560000000000000000000010808219840000112040345600000000000000000000108746808700001118961664000000000000000000001095964422024811204034560000000000000000000010962630660249111751987200000000000000000000109401296200001116733440000000000000000000001094477255000011204034560000000000000000000010971119820000112040345600000000000000000000108975769900001120403456000000000000000000001094792729000011204034560000000000000000000010731870110250112040345600000000000000000000108992865900001120403456000000000000000000001060518906000011204034560000000000000000000010855390190000112040345600000000000000000000109134273200001117519872000000000000000000001074490127000011141120000000000000000000000010666326600000))
 (.node 1 (.leaf 10880244570000000000000000000000000000000000110175846400000000000000000000104818465800001120403456000000000000000000001092922674000011204034560000000000000000000010834247710000112040345600000000000000000000106385347800001120403456000000000000000000000000000000000011204034560000000000000000000000000000000000112040345600000000000000000000000000000000001120403456000000000000000000000000000000000011204034560000000000000000000000000000000000112040345600000000000000000000000000000000001120403456000000000000000000000000000000000011204034560000000000000000000000000000000000112040345600000000000000000000000000000000001120403456000000000000000000000000000000000011156548750000000000000000000000000000000000)
 (.leaf 11067719680000000000102500736710357120280000110755840000000000001044173659103429342700001112014848000000000010249805231054213241000011189616640000000000104917998010687342800000112040345611000559001043354930106576634800001120403456000000000000000000001036387381000011204034560000000000000000000010573658660000112040345600000000000000000000104599864000001120403456000000000000000000000000000000000011204034560000000000000000000010577668110000112040345600000000000000000000105211856902511120403456000000000000000000001060807116000011156848640000000000105200861810278145450000109943193600000000000000000000000000000000001090519040000000000000000000001016933128000011204034560000000000000000000010973564880252)))
 (.node 2 (.node 1 (.leaf 11204034560000000000000000000010932256150000112040345600000000000000000000108319431200001120403456000000000000000000001076776287000010905190400000000000000000000000000000000000111673344000000000000000000000105022495400001120403456000000000000000000001083218219025311204034560000000000000000000010832239600000112040345600000000000000000000108393141200001120403456000000000000000000001082609762025411204034560000000000000000000010798794100255112040345600000000000000000000108312798502561077471609000000000000000000000000000000000011204034560000000000109897816510807722030000111961702400000000001094218731107659180500001113587712000000000000000000001055271671000011204034560000000000000000000010577649830000)
 (.leaf 11204034560000000000000000000010796990440000112040345600000000001025007367105959480500001120403456106839219911006093821026688515000011204034561021462408109829507010491309950000112040345600000000001090950110105086476000001120403456000000000000000000001057591955000011204034560000000000000000000010474529690000112040345600000000000000000000000000000000001120403456000000000010575971090000000000000011204034560000000000000000000000000000000000112040345600000000000000000000000000000000001120403456000000000010250610540000000000000011204034561053229295000000000000000000000000112040345600000000000000000000000000000000001120403456000000000000000000000000000000000011204034560000000000105190124400000000000000))
 (.node 1 (.leaf 11204034560000000000107923300710312321150000112040345600000000001065597324102924335500001120403456000000000010362011251038492945000011204034560000000000106451100010333575740000112040345600000000001076676579000000000000001120403456000000000011093884531067605684025711204034560000000000000000000010296775250000112040345600000000001090787895105105209900001120403456101226205211093247791065119068000011204034561026528322110646699010448485840000112040345600000000001111885323105176547200001120403456110189743411119135291067789732000011204034561119578293105336757310632037020000112040345611183797821091693131107099784500001120403456111075365511013052171057173150000011204034561110135786111249866110686887290000)
 (.leaf 11204034561119321973108899462000000000000000112040345611198411040000000000000000000000001120403456111926301110583520840000000000000011204034561118619605105334072910803573120000112040345611189350961061415603000000000000001120403456111625628510716488660000000000000011204034561118754242103602664210493046830000112040345611175345221078817771106190676900001120403456111958091810460795501066257303000011204034561119924233000000000010360102450000112040345600000000001033570458000000000000001120403456000000000000000000000000000000000011204034560000000000106166055100000000000000112040345600000000001071476900105582435400001120403456000000000010613770160000000000000011204034560000000000104302609700000000000000))))
 (.node 4 (.node 2 (.node 1 (.leaf 11204034560000000000000000000000000000000000112040345600000000000000000000000000000000001120403456000000000000000000001029272219000011204034560000000000000000000010683584110000112040345600000000000000000000105871340000001120403456000000000000000000001071020101000011204034560000000000000000000010275969990000112040345600000000000000000000000000000000001120403456000000000000000000000000000000000011204034560000000000000000000000000000000000112040345600000000001029651300108020888900001120403456000000000011011097621092681230000011204034560000000000109568317210824268550000112040345600000000001038388874105879373300001120403456000000000010491564920000000000000011204034560000000000105890573200000000000000)
 (.leaf 11204034560000000000000000000000000000000000112040345600000000001060736126104846626400001120403456000000000010619390530000000000000011204034560000000000107120427010485912530000112040345600000000001057518256000000000000001120403456000000000010249805231044755707000011204034560000000000103048345010472731800000112040345600000000000000000000000000000000001120403456000000000010630832590000000000000011204034560000000000000000000009936547800000112040345600000000001059883844000000000000001120403456000000000010454688600000000000000011204034560000000000108899797600000000000000112040345600000000001085165850000000000000001120403456000000000011020478190000000000000011204034561079331300109768658100000000000000))
 (.node 1 (.leaf 11204034560000000000110170126410363146900000112040345600000000001103996073103750928100001120403456109100951710866942540000000000000011204034560000000000109288987000000000000000112040345610150468011094903346000000000000001120403456110741105810968933340000000000000011204034560000000000111071167810298157890000112040345600000000001110737709103702392800001120403456000000000011073304920999872287000011204034560000000000110831916800000000000000112040345600000000001105513520000000000000001120403456000000000010905381241038336953000011204034561040954312110276064100000000000000112040345600000000001085585070105243863600001120403456104086975510825075000000000000000011204034560000000000109075329200000000000000)
 (.leaf 11204034560000000000000000000010681437740000111607808000000000001088833978104590549700001116078080000000000010907967031038400245000011104419840000000000109369129710265592740000109366476800000000001076114122103483917200001053581851000000000000000000000000000000000011036262400000000000000000000010692365190000110991769600000000000000000000106805225500001106771968000000000000000000001072888542000010863247360000000000000000000000000000000000109681049600000000000000000000000000000000001105199104000000000010995865491074489025000011204034560000000000108496536200000000000000112040345600000000001091931996000000000000001120403456000000000010822701020000000000000011204034560000000000110663366110788511440000)))
 (.node 2 (.node 1 (.leaf 11204034560000000000109387291000000000000000112040345600000000001108574811000000000000001120403456000000000011042785590000000000000011204034560000000000110348075010164202710000112040345600000000001102323856104832682200001120403456104763560310985624571069876571000011204034560000000000108728418310395891560000112040345600000000001101746825000000000000001120403456106710294511075643241041576493000011204034560000000000108194462400000000000000112040345600000000001091620464000000000000001120403456000000000000000000000000000000000011204034560000000000000000000000000000000000112040345600000000000000000000104565742400001120403456000000000000000000001069966715000011204034560000000000000000000000000000000000)
 (.leaf 11204034560000000000000000000010281845340000112040345600000000000000000000103906395300001120403456000000000000000000001038168936000011204034560000000000000000000000000000000000112040345600000000001107988736105700379300001120403456000000000011078641391070782418025811204034560000000000109859968110936649300259112040345600000000001098086613108897164000001120403456102976592210864893621079707807026011204034560000000000106788154211001985200261112040345600000000001089571547109899986202621120403456110319293410685383701098806569000011204034561070861252107870242710935769650000112040345600000000000000000000109731401502631120403456000000000000000000001084749417000011204034560000000000000000000010798256990000))
 (.node 1 (.leaf 11204034560000000000000000000010692622120000112040345600000000000000000000109025780100001120403456000000000000000000001091438813026411204034560000000000000000000010906989910265112040345600000000000000000000108703230202661120403456000000000000000000001085492544026711204034560000000000000000000010972490930000112040345600000000000000000000109793716200001120403456000000000000000000001090756931026811204034560000000000000000000010930083400269112040345600000000000000000000109086363902701118175232000000000000000000001089268669000011200102400000000000109233244710703538640000112040345600000000000000000000108683745300001120403456000000000000000000001060814409000011204034560000000000109250808410810318890000)
 (.leaf 11135877120000000000106806273610756559370000110755840000000000000000000000107002048500001109917696000000000000000000001084450947000011112284160000000000000000000010775039100000110991769600000000000000000000107636965000001077936128000000000000000000001052698208000010994319360000000000000000000010643750640000108632473600000000000000000000105047207400001119617024000000000000000000001092776280000011204034560000000000000000000010947621480271112040345600000000000000000000109220865800001120403456000000000000000000001082363955000011204034560000000000000000000010754801210000112040345600000000000000000000108530635200001120403456000000000000000000001030123092000011204034560000000000000000000010851129470000))))))))
 (.node 64 (.node 32 (.node 16 (.node 8 (.node 4 (.node 2 (.node 1 (.leaf 11204034560000000000000000000010835677610000109583374800000000000000000000104844021000001120403456000000000000000000001084935444000011204034560000000000000000000010689775280000112040345610621230650000000000108231440700001120403456000000000000000000000000000000000011204034560000000000000000000000000000000000111470884900000000000000000000102664804800001090516754000000000000000000001035470134000010779361280000000000000000000000000000000000111935488000000000001073563986105926529600001120403456000000000010604660131090145909000011204034561108778369106932270510826684780272112040345610596923821021289536108139328200001120403456000000000000000000000000000000000011204034560000000000000000000010675588280000)
 (.leaf 11204034560000000000000000000000000000000000111935488000000000000000000000105804108600001114112000000000000010252758021034648611000011112284160000000000106739500310425104750000110048051200000000000000000000000000000000001108344832000000000000000000001039671983000011193548800000000000000000000010676034880000112040345600000000000000000000107796780000001120403456000000000000000000001081163175000011204034560000000000000000000010864760840000112040345600000000000000000000108246385200001108344832000000000000000000001072693751000010779361280000000000000000000000000000000000112040345600000000000000000000107480583700001120403456000000000000000000001082741550027311204034560000000000000000000010848731380000))
 (.node 1 (.leaf 11204034560000000000000000000010848831370000112040345600000000001091934618109109280600001116078080100360822911003958921062717333000011004805120000000000000000000000000000000000110048051200000000000000000000106252404100001119617024000000000000000000001067464655000011204034560000000000109491718710741693970000112040345600000000001088999024107777404400001120403456000000000010867779311071736545000011204034560000000000110006186810529902390000112040345600000000000000000000000000000000001120403456000000000000000000000000000000000011204034561008146399000000000000000000000000112040345600000000000000000000000000000000001120403456000000000000000000000000000000000011204034560000000000000000000000000000000000)
 (.leaf 11204034560000000000000000000000000000000000112040345600000000000000000000000000000000001120403456000000000000000000000000000000000011204034560000000000000000000000000000000000112040345600000000001075921184000000000000001120403456104690572710931363910000000000000011204034560000000000105716761210311596860000112040345600000000001033409397000000000000001120403456000000000000000000001030747313000011204034560000000000109253964600000000000000112040345600000000001105293266104159944600001120403456099884511110767864691024934831000011204034560000000000105893928600000000000274112040345600000000001060306629000000000000001120403456000000000000000000001031987858000011204034561007484974109321576810467268370000)))
 (.node 2 (.node 1 (.leaf 11204034560000000000110224007510735936250000112040345610737553631112527418108080694400001120403456111304076311013876881069464136000011204034561116692958110297413110781772950000112040345610880322581118478205107598342200001120403456110271239011168158191067077689000011204034561096476992111381438810319507070000112040345611081392531110229700109004335400001120403456108068322511132921971088587755000011204034561082145085110974675210785966300275112040345611180576601052790437107036960800001120403456111844180310865180931059275168000011204034561117511525108970513510525761230000112040345611016529561069149061000000000000001120403456102497032300000000000000000000000011204034561075860648105830678500000000000000)
 (.leaf 11204034560000000000108401661100000000000000112040345600000000001005747123000000000000001120403456097630351210902967421037061493000011204034560000000000097671582810462568100000112040345600000000000000000000105388054600001120403456000000000000000000001035190362000011204034560000000000000000000010335167800000112040345600000000000000000000000000000000001120403456000000000000000000000000000000000011204034560000000000000000000010505382410000112040345600000000000000000000000000000000001120403456000000000000000000001029632278000011204034560000000000000000000010441919500000112040345600000000000000000000106974208300001120403456000000000000000000001041788942000011204034560000000000000000000010499216450000))
 (.node 1 (.leaf 11204034560000000000000000000010416264930000112040345600000000000000000000107334994600001120403456000000000000000000001085995813000011204034560000000000106656537010978686550000112040345600000000001089449073109254957600001120403456000000000010635664420000000000000011204034560000000000106064552900000000000000112040345600000000001068048476000000000000001120403456000000000010502302330000000000000011204034560000000000104753581300000000000000112040345600000000001075834782000000000000001120403456000000000010656795330000000000000011204034560000000000107613761000000000000000112040345600000000001038509670000000000000001120403456000000000010106997570000000000000011204034560000000000000000000000000000000000)
 (.leaf 11204034560000000000000000000000000000000000112040345610448466931069624695102616342900001120403456000000000010961216860000000000000011204034560000000000109639484000000000000000112040345600000000001093781160105837125700001120403456000000000010978778421063800900000011204034560000000000110193058800000000000000112040345600000000001103492966000000000000001120403456102872439311043616590000000000000011204034561105806503109895934300000000000000112040345610343835491115787677000000000000001120403456000000000011129116950000000000000011204034561027304638110236370200000000000000112040345600000000001108545215000000000000001120403456000000000011097576571040602512000011204034560000000000110754581700000000000000))))
 (.node 4 (.node 2 (.node 1 (.leaf 11204034561035019473110215257100000000000000112040345600000000001104410680099160463600001120403456100242711311083084461044110855000011204034561028898339108944592710289703390000112040345600000000001094291921103293046700001120403456000000000010887073100000000000000011204034560000000000109810685100000000000000112040345600000000001097562640103252675800001120403456000000000010913958591042695243000011204034560000000000106500592810452578390000112040345600000000001059494612105020645000001120403456105987315610351810711052829447000011204034560000000000107544806700000000000000112040345600000000001084020385000000000000001120403456000000000010251147410000000000027611204034560000000000105564256300000000000000)
 (.leaf 11204034560000000000108499870710862536920000112001024000000000001100276669108450013800001106771968000000000010970820771068900234000011020533760000000000109288766810757218870000110362624000000000001091962510102785361200001103626240000000000010777750670000000000000011204034561064078231109422858700000000000000112040345610755442551110136193105219484200001120403456000000000011162187461050893113000011204034560000000000110036789500000000000000112040345600000000001093149393000000000000001120403456000000000010985091890000000000000011204034560000000000108502093700000000000000112040345600000000001099336883103321905100001120403456000000000010931907070000000000000011204034560000000000109143004310356565640000))
 (.node 1 (.leaf 11204034560000000000107610279810255591430000112040345600000000001057471280000000000000001120403456000000000000000000000000000000000011204034560000000000000000000000000000000000112040345600000000001073967478103174365200001120403456104418822110681189400000000000000011204034560000000000108943879700000000000000112040345600000000001107350363103574716100001120403456000000000010607210270000000000000011204034560000000000000000000000000000000000112040345600000000000000000000000000000000001120403456000000000000000000000000000000000011204034560000000000000000000010419919670000112040345600000000000000000000104129066700001120403456000000000000000000001035442958000011204034560000000000000000000000000000000000)
 (.leaf 11204034560000000000000000000000000000000000112040345600000000000000000000104385967400001120403456000000000000000000001026965147000011204034560000000000110664519510796149170277112040345600000000001106163427109444493402781120403456000000000011054758231094701314027911204034560000000000110672824210788409780280112040345600000000001107252426108593566402811120403456105161224010995183911090923013028211204034561025230168108330022310923635330000112040345600000000001085001223109675031600001120403456111080156110926361151101444489000011204034561109257070109083623410952071400283112040345610990008221091149339110191753800001120403456106136394610649035871094197725028411204034561040887472104614665910968714330285)))
 (.node 2 (.node 1 (.leaf 11204034560000000000102511474110897144990286112040345610570539470000000000108310397100001120403456000000000000000000001075935953000011204034560000000000000000000010897381300000112040345600000000000000000000109548641302871120403456000000000000000000001088871369028811204034560000000000000000000010989872470289112040345600000000000000000000109626669102901120403456000000000000000000001094883111029111204034560000000000000000000010922415740000111791308800000000000000000000108836028900001057032690000000000000000000000000000000000010968104960000000000108262787610513060180000111358771200000000001100091228107286062800001116078080000000000011016675001078388890000011204034561051647136107253134810888616230000)
 (.leaf 11204034560000000000000000000010790080880000110519910400000000000000000000106272421200001099431936000000000010741851621038471690000011112284160000000000110058647110748951360000111634022400000000001090222083106749122900001119617024000000000010793345091079189885000011175198720000000000000000000010682939970000109051904000000000000000000000102734625200001091886960000000000000000000000000000000000011004805120000000000000000000010531843810000109051904000000000000000000000104994144300001096810496000000000000000000001048922051000011204034560000000000000000000010797148950000112040345600000000000000000000107594538900001120403456000000000000000000001074990996000011160780800000000000000000000010691208780000))
 (.node 1 (.leaf 11204034560000000000000000000010544160700000112040345600000000000000000000107411694800001120403456000000000000000000001031791076000011167334400000000000000000000010620022000000108617667700000000000000000000000000000000001117606156000000000000000000001078101372000011204034560000000000000000000010891793950000112040345600000000000000000000108264190600001120403456000000000000000000000000000000000011204034560000000000000000000000000000000000112040345600000000000000000000000000000000001120403456000000000000000000000000000000000011204034560000000000000000000000000000000000112040345600000000000000000000000000000000001120403456000000000000000000000000000000000011204034560000000000000000000000000000000000)
 (.leaf 11204034560000000000000000000000000000000000112040345600000000000000000000000000000000001120403456000000000000000000000000000000000011204034560000000000000000000000000000000000111539870800000000000000000000000000000000001100480512000000000000000000000000000000000011067719680000000000000000000010380286470000110755840000000000000000000000106020359800001120403456000000000000000000001029967070000011204034561039612001105250857910516680610000107793612800000000001056152591104673384800001109131264000000000010788722971053014772000010905190400000000000102506105410441258200000111411200000000000000000000000107088788700001120010240000000000000000000001081227834000011204034560000000000000000000010772225500000)))))
 (.node 8 (.node 4 (.node 2 (.node 1 (.leaf 11204034560000000000000000000010839765840000112040345600000000000000000000109003487302921120403456000000000000000000001086207740000011204034560000000000000000000010827590420293112040345600000000000000000000107795123800001120403456000000000000000000001075739330000011200102400000000000000000000010696489960000110205337600000000000000000000104643955600001079763335000000000000000000000000000000000011204034560000000000000000000010552580160000112040345600000000000000000000106591270000001120403456000000000000000000001068800871000011204034560000000000000000000010646370210294112040345600000000000000000000107700074302951120403456000000000000000000001089861828000011204034560000000000000000000010775126870000)
 (.leaf 11204034560000000000000000000010760814750000112040345600000000000000000000108302460802961120403456000000000000000000001078772030000011204034560000000000000000000010770408090297112040345600000000000000000000108611023002981120403456000000000000000000001084219762000011204034560000000000000000000010868432670000112040345600000000001066509166106502254900001118961664000000000000000000000000000000000011171266560000000000000000000010630510640000111751987200000000000000000000106440367900001120403456000000000000000000001056935451000011204034560000000000109814334110608262160000112040345600000000000000000000106255846700001120403456105167515400000000000000000000000011204034560000000000000000000000000000000000))
 (.node 1 (.leaf 11204034560000000000000000000000000000000000112040345610515101340000000000103610753600001120403456000000000000000000000000000000000011204034560000000000000000000010736687980000112040345600000000000000000000106717469700001120403456000000000000000000001066893894000011204034560000000000000000000010512314620000112040345600000000000000000000106231364200001120403456000000000000000000000000000000000011204034561051788803000000000000000000000000112040345600000000000000000000000000000000001120403456000000000000000000000000000000000011204034560000000000000000000000000000000000112040345600000000001035234758000000000000001120403456107400492400000000000000000000000011204034560000000000107827293100000000000000)
 (.leaf 11204034561117267696107649580410970554270000112040345611169067821091869606108702088400001120403456111638020610840086411088892850000011204034560000000000111441855110835409300000112040345610863551761116847289109621280700001120403456108351222411174117511088802526000011204034560000000000111586136610722931240000112040345610975040121099364460104172737700001120403456108636639610660914141027349628000011204034561116615433107220922510861747680000112040345611184477411062999373104878354300001120403456112026266500000000000000000000000011204034561111989364107415831800000000000000112040345600000000001042985832000000000000001120403456000000000010486397530000000000000011204034560000000000109057985700000000000000)))
 (.node 2 (.node 1 (.leaf 11204034561072410200108880294100000000000000112040345609213628271102601781000000000000001120403456000000000010843884360000000000000011204034560000000000106545639600000000000000112040345600000000001100985506000000000000001120403456000000000010849242580000000000000011204034560000000000000000000000000000000000112040345600000000000000000000000000000000001120403456000000000000000000000000000000000011204034560000000000102503421100000000000299112040345600000000000000000000000000000000001120403456000000000000000000001067163803000011204034560000000000000000000010503688530000112040345600000000000000000000104935558000001120403456000000000000000000001059332637000011204034560000000000000000000000000000000000)
 (.leaf 11204034560000000000000000000010894289790000112040345600000000001057145802000000000000001120403456000000000010773514420000000000000011204034560000000000107057848000000000000000112040345600000000001083454154000000000000001120403456000000000010504516930000000000000011204034560000000000000000000000000000000000112040345610582493901058654074000000000000001120403456000000000010796599870000000000000011204034560000000000107578067510443918980000112040345600000000001094156445000000000000001120403456000000000010876788670000000000000011204034560000000000109987642710738697710000112040345600000000001114809067000000000000001120403456000000000011079908591032421129000011204034560000000000110712628200000000000000))
 (.node 1 (.leaf 11204034560000000000110539351000000000000000112040345609840994141087592045000000000000001120403456000000000010851318760000000000000011204034561102138278108520632500000000000000112040345600000000001105909619000000000000001120403456000000000011124937060000000000000011204034560000000000111021740500000000000000112040345610884869941108004753000000000000001120403456107413644511090735661022384016000011204034560000000000109361716300000000000000112040345600000000001102140460000000000000001120403456000000000010891347101033245015000011204034560000000000110012294800000000000000112040345600000000001097482948103213458500001120403456000000000011031503961044375105000011204034560000000000109612598600000000000000)
 (.leaf 11204034560000000000101608188810422452430000112040345600000000001085644000000000000000001120403456000000000010818351530000000000000011204034560000000000109086989400000000000000112040345600000000001025087898106158346300001118961664000000000010656988271058580877030011004805120000000000000000000000000000000000110362624000000000001098614256105647022600001093664768000000000010861175211084434799000011128012800000000000110675424710925567670000111607808000000000001111146680108798134800001107558400000000000011018132001082326143000010936647680000000000109256288510657796710000111122841610763858501107555202000000000000001108344832107255309111040423671029272545000011104419840000000000110490261910330894220000))))
 (.node 4 (.node 2 (.node 1 (.leaf 11189616640000000000111054765410499169160000111856844800000000001095167692103084272100001120403456000000000010962165830000000000000011204034560000000000109688452500000000000000112040345610816145581109100619104841406000001120403456000000000011137017710978199277000011204034560000000000108549803900000000000000112040345610664219161101235329106511053800001120403456000000000011084617221031539482000011204034560000000000108259474110486776140000112040345600000000000000000000102316551700001120403456000000000010766572851049393218000011204034560000000000109144975610429826280000112040345600000000001098353476106799096000001120403456000000000000000000001042763710000011204034560000000000000000000010678989650000)
 (.leaf 11204034561044795623000000000010754040490000112040345600000000000000000000105051050500001120403456000000000000000000001039937263000011204034560000000000000000000000000000000000112040345610603597131075476588000000000000001120403456105893963900000000000000000000000011204034561041964032000000000010693764890000112040345600000000000000000000107071655300001120403456106725149100000000001075188537000011204034561060558170000000000010767342100000112040345600000000000000000000104110763500001120403456000000000000000000001039281579000011204034560000000000000000000010500352610000112040345600000000000000000000000000000000001120403456105798696100000000000000000000000011204034560000000000000000000010318379280000))
 (.node 1 (.leaf 11204034560000000000110040417610463261280000112040345600000000001107547154107213064103011120403456000000000011074007471086683552000011204034560000000000110735534310887978240000112040345600000000001108347637106400950000001120403456000000000011077340101077127549000011204034560000000000110557690610928862990302112040345610433723121092987493109261440203031120403456000000000011035360101097061368000011204034561101591852110201028011016783640000112040345611103034381089609086110315514600001120403456110861641910927724301100174563000011204034561110887566108581470911013708810000112040345611128428201090176156109741808400001120403456110818354610950537121097872776000011204034561110338706108565406710843673010304)
 (.leaf 11204034561075478811108169128810999314460305112040345600000000001043589811109091202403061120403456000000000000000000001083980700000011204034560000000000000000000010709536870000112040345600000000000000000000109141821600001120403456000000000000000000001081369059030711204034560000000000000000000010889698180308112040345600000000000000000000109211641903091120403456000000000000000000001080055923000011204034560000000000000000000010932930770310112040345600000000000000000000109484746403111120403456000000000000000000001097797112000011204034560000000000000000000010946021170312112040345600000000000000000000109805480203131120403456000000000000000000001098921132000011204034560000000000000000000010946444880314)))
 (.node 2 (.node 1 (.leaf 11204034560000000000000000000010899900100000112040345600000000000000000000108199873200001108344832000000000000000000001040943995000011171266560000000000000000000010721822180000111044198400000000000000000000106587513800001083876835000000000000000000000000000000000011067719680000000000000000000010409340810000111358771200000000000000000000106978716700001090519040000000000000000000001033475712000010968104960000000000000000000010497092760000110362624000000000000000000000104252663600001118961664000000000000000000001076611449000011200102400000000000000000000010770818010000112040345600000000000000000000107837273900001120403456000000000000000000001072748592000011204034560000000000000000000010673562960000)
 (.leaf 11204034560000000000000000000010711326640000111280128000000000000000000000106791554500001106771968000000000000000000001046483867000011160780800000000000000000000010598561210000112001024000000000000000000000107163335300001120010240000000000000000000001065936595000010977090210000000000000000000010475630610000112040345600000000000000000000107403270200001120403456000000000000000000000000000000000011204034560000000000000000000000000000000000112040345600000000000000000000000000000000001120403456000000000000000000000000000000000011204034560000000000000000000000000000000000112040345600000000000000000000103750891200001120403456000000000000000000001040570503000010654357600000000000000000000000000000000000))
 (.node 1 (.leaf 10994319360000000000104050951510178519690000109943193600000000000000000000103715717500001077936128000000000010432744000000000000000010968104960000000000105925469800000000000000111201484800000000001050525512106273625500001117913088000000000010570182951066102546000011189616640000000000000000000010699464390000112040345600000000000000000000107302952503151120403456000000000000000000001081657436031610905190400000000000000000000000000000000000111673344000000000000000000000103851144500001120403456000000000000000000001075476996000011204034560000000000000000000010815916480000112040345600000000000000000000108618949803171120403456000000000000000000001082586046031811204034560000000000000000000010838512310319)
 (.leaf 11204034560000000000000000000010790196930320112040345600000000000000000000108054451400001120403456000000000000000000001085775962000011204034560000000000000000000010925678610000112040345610778050981048367963108152298503211120403456110037121110528843891090126710032211204034560000000000106957771910755130550000112040345600000000001048924966107017550900001120403456102835046211038443961051315752000011204034560000000000000000000010737418820000112040345600000000000000000000104967340900001120403456000000000000000000001056014487000011204034561068108236000000000010402864140000112040345600000000000000000000106871923300001120403456000000000000000000001062882288000011204034560000000000000000000010685715690000))))))
 (.node 16 (.node 8 (.node 4 (.node 2 (.node 1 (.leaf 11204034560000000000000000000010685821020000112040345610494578100000000000104967173000001120403456000000000000000000001029040709000011204034560000000000000000000000000000000000112040345600000000000000000000104563985900001120403456000000000000000000000000000000000011204034560000000000000000000010598544460000112040345600000000000000000000104101638800001120403456102081547911022297991048100383000011204034561080852839109683073400000000000000112040345610390129871084810802000000000000001120403456000000000000000000000000000000000011204034560000000000000000000000000000000000112040345600000000000000000000000000000000001120403456000000000010780837680000000000000011204034560000000000103845598300000000000000)
 (.leaf 11204034561057364157000000000000000000000000112040345600000000000000000000000000000000001120403456000000000010999542321002115206000011204034560000000000109063553710338299520000112040345610782243561104277353105080172000001120403456109502695310985973741063993118000011204034561106898138110029606710740299850000112040345611116061831099190973108235867800001120403456111248806210941609541076790649000011204034561086191990110328340810560594100000112040345600000000001109450844107423172600001120403456108565760911124472281072242781000011204034561068374138110876628110575877830000112040345600000000001097452854106163553400001120403456102849434410941839181060972385000011204034560000000000109913691910592431740000))
 (.node 1 (.leaf 11204034561106253615110086104010832748550000112040345610860471321104234362107571283500001120403456108911105611150195691045910563000011204034561055717390110869537110638339010000112040345600000000001109136323107302410800001120403456000000000011090185161063307598000011204034560000000000108340445200000000000000112040345600000000001061430703104087124800001120403456000000000010722008370000000000000011204034560000000000106755019210435398240000112040345610789269531074608787102996082500001120403456111793258510590433050000000000000011204034561096646176109073064310695001630000112040345611025600691092993679000000000000001120403456111186374110852140840000000000000011204034560000000000108722420400000000000000)
 (.leaf 11204034560000000000106622479200000000000000112040345600000000001083669322000000000000001120403456000000000010811783251041149469000011204034560000000000110059396800000000000000112040345600000000000000000000000000000000001120403456000000000000000000000000000000000011204034560000000000000000000000000000000000112040345610644762540000000000000000000000001120403456106318132209749978421054461753000011204034561075200033000000000010640302680000112040345610318116690000000000107816601500001120403456106537490911005717381069791363000011204034560000000000105018661310737073080000112040345600000000001098445645107649838500001120403456107101556809986604271064706495000011204034560000000000104626745510358348850000)))
 (.node 2 (.node 1 (.leaf 11204034560000000000105724646500000000000000112040345600000000001070722764104184012800001120403456000000000010554882131024837579000011204034560000000000000000000000000000000000112040345600000000001033409397000000000000001120403456000000000010773711550000000000000011204034560000000000108108227500000000000000112040345600000000001081794468000000000000001120403456000000000011102915401029903424000011204034560000000000111050830600000000000000112040345600000000001111570671000000000000001120403456000000000011060187230000000000000011204034560000000000110379249209938669480000112040345600000000001106335446000000000000001120403456000000000011112042460000000000000011204034561090026643110520093900000000000000)
 (.leaf 11204034561107565509107585785010395396770000112040345610582362541099007682000000000000001120403456000000000010972744910000000000000011204034560000000000109859454310469812070000112040345600000000001094546306000000000000001120403456000000000011018406720000000000000011204034560000000000109878150400000000000000112040345600000000001097908775000000000000001120403456000000000010888882950000000000000011204034560000000000109087314400000000000000112040345600000000001090190836000000000000001120403456000000000010779193511036396582000011204034560000000000109201756010342872150000112040345600000000001095091461107525091500001120403456000000000011021635811059581423000011204034560000000000110171657310631747750000))
 (.node 1 (.leaf 11204034560000000000104692512200000000000000112040345600000000001067824500102874303400001120403456000000000010730346641030482168000011204034560000000000102508789810416339530000112040345600000000001042999253000000000000001120403456000000000010682045041041396909000011204034560000000000106573154210784826660000112040345600000000001060491179103825919800001120403456000000000010385499361038405386000011204034560000000000102514158500000000000000111044198410251308471061626996107243887400001120403456104657488111164873261079428017000011204034560000000000110200666200000000000000112040345600000000001075776061000000000000001120403456000000000010979185260000000000000011204034560000000000110448932300000000000000)
 (.leaf 11204034561077707702111656155210721760420000112040345609107751961117075525103745093200001120403456000000000011078720551032247220000011204034560000000000108157846200000000000000112040345600000000001090497230000000000000001120403456000000000010865680061024364484000011204034560000000000110734844900000000000000112040345600000000001067978850104162962000001120403456000000000000000000000000000000000011204034560000000000000000000010453309630000112040345600000000000000000000105200815900001120403456000000000010738466821015562354000011204034560000000000000000000010729623280000112040345600000000000000000000105018073900001120403456104890074010784608350000000000000011204034560000000000101801462310589539720000))))
 (.node 4 (.node 2 (.node 1 (.leaf 11204034560000000000000000000010593244160000112040345600000000000000000000106757047400001120403456000000000000000000001048923143000011204034560000000000000000000010126856150000112040345600000000000000000000104787219500001120403456000000000000000000000000000000000011204034560000000000000000000010294618320000112040345600000000001107624251108218064200001120403456000000000011078014071085640207000011204034560000000000110518353310878417300323112040345600000000001106443659109392134500001120403456110009351510990801391085105563032411204034561031057365104283819210919463520325112040345600000000000000000000109480950500001120403456000000000000000000001092040111032611204034560000000000000000000010834989130327)
 (.leaf 11204034560000000000000000000010800006750328112040345600000000000000000000108039623503291120403456000000000000000000001098941955033011204034560000000000000000000010919325400331112040345600000000000000000000109558365603321120403456000000000000000000001082677847033311204034560000000000000000000010908981940334112040345600000000000000000000108553752203351120403456000000000000000000001093902510033611204034560000000000000000000010984722100000112040345600000000001087395752110094523500001108344832000000000000000000001079118466000011036262400000000000000000000010406616810000109051904000000000000000000000104315880300001077936128000000000000000000001059732206000011120148480000000000000000000010788987260000))
 (.node 1 (.leaf 11179130880000000000000000000010862616770000111673344000000000000000000000104324015200001077936128000000000000000000000000000000000010698704810000000000000000000000000000000000107793612800000000000000000000000000000000001093664768000000000000000000001033080496000010887651500000000000000000000000000000000000111280128000000000000000000000107702936200001120403456000000000000000000001077908387000011204034560000000000000000000010650272000000112040345600000000000000000000108408926900001117126656000000000000000000001078085617000011036262400000000000000000000010164414430000108502219500000000000000000000101677232600001086324736000000000000000000001056264791000011036262400000000000000000000010572649480000)
 (.leaf 11145898090000000000000000000010761300960000112040345600000000000000000000000000000000001120403456000000000000000000000000000000000011204034560000000000000000000000000000000000112040345600000000000000000000000000000000001120403456000000000000000000000000000000000011204034560000000000000000000000000000000000112040345600000000000000000000000000000000001120403456000000000000000000000000000000000011204034560000000000000000000010508160160000110528901900000000000000000000105130400900001090519040000000000010251147410000000000000011075584000000000000104181142710614687830000111791308800000000001024953680105852584900001120010240000000000000000000001062220754000011204034560000000000000000000010569674790000)))
 (.node 2 (.node 1 (.leaf 11204034560000000000000000000010675082080000112040345600000000000000000000109038814603371120403456000000000000000000001079568542033811204034561076996411000000000010680377670339112040345600000000000000000000108413133900001108344832000000000000000000001065206277000010652237800000000000000000000000000000000000112040345600000000000000000000000000000000001120403456000000000000000000001074240684000011204034560000000000000000000010883203690000112040345600000000000000000000108467965300001120403456000000000000000000001088362886034011204034560000000000000000000010923531650341112040345600000000000000000000107183045403421120403456000000000000000000001084043211000011204034560000000000108524281510946160550343)
 (.leaf 11204034560000000000000000000010917238980344112040345600000000000000000000108832963603451120403456000000000000000000001051930986034611204034560000000000110927009510761154970000112040345600000000001097334155106325820300001120403456000000000000000000001090808364000011204034560000000000000000000010585464820000112040345600000000000000000000105924945700001120403456000000000000000000001069905823000011204034560000000000000000000010669862130000112040345600000000000000000000106547883500001120403456000000000000000000001063708735000011204034560000000000000000000010261302650000112040345600000000000000000000000000000000001120403456000000000000000000001036811585000011204034560000000000000000000010509486920000))
 (.node 1 (.leaf 11204034560000000000000000000010266621330000112040345600000000000000000000105287973000001120403456000000000010855116701068086929000011204034560000000000000000000000000000000000112040345600000000000000000000000000000000001120403456000000000000000000001030370860000011204034560000000000000000000000000000000000112040345600000000000000000000103280279700001120403456000000000000000000001041209858000011204034561043176085105755852100000000000000112040345600000000001049186691000000000000001120403456105686065600000000001032648872000011204034560000000000109989199900000000000000112040345600000000000000000000000000000000001120403456107680214311013310121080536090000011204034560000000000000000000000000000000000)
 (.leaf 11204034560000000000000000000000000000000000112040345600000000000000000000000000000000001120403456000000000010691037631044266758000011204034561077262363110899830510704476640000112040345610253976721113899716108558380700001120403456106559722411112049281077496349000011204034561100077735111165841110875060880000112040345611160915951074528256108386496200001120403456110119128711113567091092281744000011204034561028164973111337621410888311420000112040345610939024751107066251109260371600001120403456000000000011145027521090114980000011204034561029065037111605729210816518030000112040345610081732431116196622107504841100001120403456106546154611156161301060512619000011204034561113307034109832013110688752480000)))))
 (.node 8 (.node 4 (.node 2 (.node 1 (.leaf 11204034561112210677109643384810834883540000112040345610839029201107094300104468589400001120403456108483526511131304801058797048000011204034561059970347111268509810675091870000112040345610302670911112612720107443472400001120403456104643992511122345771049908098000011204034560000000000109694209210590442760000112040345600000000001091053289102855741100001120403456000000000000000000000000000000000011204034560000000000107617158410318675740000112040345600000000001068808484104404053000001120403456000000000000000000000000000000000011204034560000000000104379784910395287200000112040345600000000001038536514105916831400001120403456000000000010580953921045479864000011204034560000000000000000000010670691920000)
 (.leaf 11204034561051844940106701919410279109930000112040345611190002520978433815000000000000001120403456111091465810426637090000000000000011204034561111239795104326097800000000000000112040345611013774691086535080103492544200001120403456110755093410743307040000000000000011204034561091536571109303163800000000000000112040345600000000001088611261000000000000001120403456000000000000000000000000000000000011204034560000000000107684141500000000000000112040345600000000001025061054000000000000001120403456000000000000000000000000000000000011204034560000000000000000000000000000000000112040345600000000000000000000000000000000001120403456000000000010443212980000000000000011204034560000000000109934993700000000000000))
 (.node 1 (.leaf 11204034561058436540105646129200000000000000112040345600000000000000000000000000000000001120403456000000000000000000000000000000000011204034560000000000000000000000000000000000112040345600000000000000000000000000000000001120403456000000000000000000000000000000000011204034560000000000000000000000000000000000112040345600000000000000000000000000000000001120403456000000000000000000000000000000000011204034561059600460110462338310488352900000112040345600000000001082505193000000000000001120403456105556522000000000001027854338000011204034560000000000000000000000000000000000112040345600000000000000000000102600347500001120403456000000000000000000001074258152000011204034560000000000000000000010567795280000)
 (.leaf 11204034560000000000107802211110597355310000112040345600000000001102332979105075103800001120403456000000000010854776961057736467000011204034560000000000000000000010453388920000112040345610234332611090532147101571657900001120403456000000000010840967221041346850000011204034560000000000000000000010501473800000112040345600000000000000000000000000000000001120403456000000000000000000001048059750000011204034560000000000000000000010160974150000112040345600000000000000000000103790729300001120403456000000000000000000001082624621000011204034560000000000000000000010567221050000112040345600000000000000000000103274357200001120403456000000000000000000000000000000000011204034560000000000000000000000000000000000)))
 (.node 2 (.node 1 (.leaf 11204034560000000000105715083500000000000000112040345600000000001057357195000000000000001120403456000000000010519616421053221237000011204034560000000000105876648110324361720000112040345600000000001052166324000000000000001120403456000000000010497101401039663043000011204034560000000000102506105410403565300000112040345600000000001069436790106217877700001120403456000000000010690777581057828139000011204034561075338096110316313600000000000000112040345611127186631072587552000000000003471120403456106616776711106323011048272692000011204034560000000000110712864100000000000000112040345600000000001102662389000000000000001120403456106886410011082602121049410875000011204034561099308158109482973609786822930000)
 (.leaf 11204034561088925123110568779310487811530000112040345600000000001103337305103218123900001120403456000000000010857908010000000000000011204034560000000000108737876510268382400000111896166400000000001087498302103317129800001116340224000000000010685492761023718986000011189616640000000000107885635800000000000000112040345600000000001097466275104149595200001120403456000000000010622309760000000000000011204034560000000000107820036900000000000000112040345600000000001059355361105063350700001120403456000000000010775410251057749441000011204034560000000000107579955010370075830000112040345600000000001084868054000000000000001120403456108279167010837431420000000000000011204034561089359114109104479610480120770348))
 (.node 1 (.leaf 11204034560000000000108529293710434418270000112040345610251160831090553538105178967700001096810496000000000010661283231051649213000010968104960000000000109356033010739904750000112040345610467692951116620469108219609100001120403456000000000010972847670000000000000011204034560000000000111488501000000000000000112040345610842181891112853368000000000000001120403456000000000011133405100000000000000011204034560000000000111045826300000000000000112040345600000000001054176235000000000000001120403456000000000009993046720000000000000011204034561043118170110219247000000000000000112040345600000000001095810679000000000000001120403456000000000010669789281027074373000011204034560000000000106861302910430775310000)
 (.leaf 11204034560000000000000000000000000000000000112040345600000000001065997461000000000000001120403456000000000010708368491052680778000011204034560000000000000000000010355117210000112040345600000000000000000000000000000000001120403456000000000000000000001049119839000011204034560000000000000000000010481727920000112040345600000000000000000000107628969003491120403456000000000000000000000000000000000011204034560000000000000000000010579148670000112040345600000000000000000000106456257800001120403456000000000010628198561063860277000011204034560000000000110045026110575451010000112040345600000000000000000000000000000000001120403456000000000000000000001031547784000011204034561060578504000000000010701195900000))))
 (.node 4 (.node 2 (.node 1 (.leaf 11204034560000000000000000000010656912120000112040345600000000000000000000103432308400001120403456000000000000000000001036913198000011204034560000000000000000000000000000000000112040345600000000000000000000102734291800001120403456000000000000000000000000000000000011204034560000000000111448081010785372520000112040345600000000001106066853108505508403501120403456000000000011076314861074460958035111204034560000000000111018159610683031000000112040345600000000001116267833108552990800001120403456000000000011163505521088285801000011204034560000000000111613634210915873440000112040345610494326451025678456109156866503521120403456102515017509917750581098391069035311204034561045323569105229047610909074280354)
 (.leaf 11204034561105065867109918043510907139060355112040345600000000000000000000109148031303561120403456000000000000000000001085653073035711204034560000000000000000000010952738670000110362624000000000001100696798108545959000001088444684000000000000000000001046634954000011075584000000000000000000000010602142050000111122841600000000000000000000107126881400001090519040000000000000000000001034389378000010629365420000000000000000000000000000000000110834483200000000000000000000106000720000001118175232000000000000000000001076524509000011004805120000000000000000000010501558770000110362624000000000000000000000106002514800001119617024000000000000000000001075227631000011204034560000000000000000000010722828820000))
 (.node 1 (.leaf 11204034560000000000000000000010732922760000111896166400000000000000000000106117004300001116078080000000000000000000001051474880000011163402240000000000000000000010649914360000111896166400000000000000000000103729520900001114112000000000000000000000001057649644000011036262400000000000000000000010554008730000108632473600000000000000000000104893774800001114898432000000000000000000001076089095000011175198720000000000000000000010842075210000111935488000000000000000000000106850205800001112801280000000000000000000001065769196000011020533760000000000000000000010588778960000107793612800000000000000000000000000000000001096240385000000000000000000000000000000000011204034560000000000000000000010791264890000)
 (.leaf 11204034560000000000000000000000000000000000112040345600000000000000000000000000000000001120403456000000000000000000000000000000000011204034560000000000000000000000000000000000112040345600000000000000000000000000000000001120403456000000000000000000000000000000000011204034560000000000000000000000000000000000112040345600000000000000000000000000000000001008981770000000000000000000000000000000000010089817700000000000000000000000000000000000110755840000000000000000000000105502381100001105199104000000000000000000001027450066000010855898100000000000000000000000000000000000110205337600000000001033436240104359658000001114112000000000000000000000001064362137000011204034560000000000106096429610769399770000)))
 (.node 2 (.node 1 (.leaf 11204034560000000000000000000010602744200000112040345600000000000000000000105967761400001120403456000000000000000000001041803043000011204034560000000000000000000010783805920358112040345600000000000000000000108670303800001120403456000000000000000000001088426799000011204034560000000000000000000010810920060000109051904000000000000000000000000000000000001008981770000000000000000000000000000000000011204034560000000000000000000010468760580000112040345600000000000000000000104896162100001120403456000000000000000000001075742964000011204034560000000000000000000010851355000000112040345600000000000000000000109186726100001120403456000000000000000000001085899500000011204034560000000000000000000010909305200359)
 (.leaf 11204034560000000000000000000010921175670360112040345600000000000000000000109335448203611120403456000000000000000000001086014183036211204034560000000000000000000010845007750363112040345600000000001100443602109080606200001120403456000000000000000000001093832129000011204034560000000000000000000010900138300364112040345600000000000000000000108337333503651120403456000000000000000000001082225437000011204034560000000000000000000010645081020000112040345600000000000000000000105420765100001120403456000000000000000000001049375769000011204034561065385504110863392410631790390000112040345600000000000000000000104209710000001120403456000000000000000000001025670620000011204034560000000000000000000010678897960000))
 (.node 1 (.leaf 11204034560000000000000000000010481548920000112040345600000000000000000000106761540300001120403456000000000000000000001053456788000011204034560000000000109455029010328465110000112040345600000000000000000000000000000000001120403456000000000000000000001036323606000011204034560000000000000000000010348491840000112040345600000000000000000000000000000000001120403456000000000000000000000000000000000011204034560000000000000000000010049122770000112040345600000000001035194493000000000000001120403456000000000010250073670000000000000011204034560000000000000000000010516495670000112040345600000000000000000000000000000000001120403456000000000010982520781048673264000011204034561079094905111325499910668215070000)
 (.leaf 11204034561072824135111392459310886603130000112040345611119464001093427475109961995900001120403456110972617310993088331108024316000011204034561060702958111582950210914251710000112040345611169531321079815596109080126900001120403456109203018211130507361083522438000011204034560000000000111282377210577428220000112040345600000000001104426670103339257700001120403456000000000011055928441038190430000011204034561080377901111449307910528797660000112040345609959583561099658376106655020000001120403456000000000010651669890000000000000011204034560000000000104585809100000000000000112040345600000000000000000000107166927000001120403456000000000010884848031031183441000011204034560000000000106537922100000000000000)))))))
 (.node 32 (.node 16 (.node 8 (.node 4 (.node 2 (.node 1 (.leaf 11204034561117613219104665668600000000000000112040345611136149241080214055104323012100001120403456000000000010946008320000000000000011204034560000000000108986472900000000000000112040345600000000001077126627000000000000001120403456000000000010700567090000000000000011204034560000000000105952481100000000000000112040345600000000001016404011000000000000001120403456000000000000000000000000000000000011204034560000000000107540864000000000000000112040345600000000001098392168000000000000001120403456000000000010250342110000000000000011204034560000000000000000000000000000000000112040345600000000000000000000000000000000001120403456000000000000000000000000000000000011204034560000000000000000000000000000000000)
 (.leaf 11204034561002641862109831111310370604510000112040345600000000001071330938102745501900001120403456000000000010876289551034148416000011204034560000000000109669945200000000000000112040345600000000000000000000000000000000001120403456000000000000000000000000000000000011204034560000000000000000000010672564260000112040345600000000000000000000103896465900001120403456000000000000000000001056324437000011204034560000000000102508789810564565590000112040345600000000000000000000105066911200001120403456000000000000000000000000000000000011204034560000000000000000000010397613660000112040345600000000000000000000104329559700001120403456000000000010814618601053364316000011204034560000000000000000000010579839340000))
 (.node 1 (.leaf 11204034560000000000000000000010485449040000112040345600000000000000000000104197565700001120403456000000000000000000001051768793000011204034560000000000000000000010629797810000112040345600000000001093074525102616255600001120403456000000000010974105961025711795000011204034560000000000000000000010493908420000112040345600000000000000000000104845132100001120403456104354377500000000000000000000000011204034561032981242000000000000000000000000112040345600000000001050230233000000000000001120403456000000000000000000000000000000000011204034560000000000104822703400000000000000112040345600000000001038415718104575147200001120403456000000000010250073671059674372000011204034560000000000102503421110734615180000)
 (.leaf 11204034560000000000105403866210620939970000112040345600000000001069800856000000000000001120403456000000000010807140161059262679000011204034561103690170107142572900000000000000112040345610969523811099162976103681958900001120403456106307837711029285701059202194000011204034561075880487110645996400000000000000112040345600000000001115942473000000000000001120403456105100312611068885701056083656000011204034560000000000110778408000000000000000112040345600000000001101784416000000000000001120403456000000000010971774981040699325000011204034560000000000110202087000000000000000112040345600000000001103684436000000000000001120403456000000000011061398340000000000000011204034560000000000104925044400000000000000)))
 (.node 2 (.node 1 (.leaf 11204034560000000000108126095310026888650000110991769600000000001076267634000000000000001120403456000000000010761745201030317471000011204034560000000000104163694300000000000000112040345610690047441069196876000000000000001120403456104920158910547533710000000000000011204034560000000000105425676500000000000000112040345600000000001062737648102218451100001120403456000000000010704660731048319386000011204034560000000000106449757810414720810000111489843200000000001098046872105488078900001109917696000000000010808276811049863398000010905190401046255711107772305710745769090000108632473600000000000000000000000000000000001105199104000000000010489081891041631310000010994319360000000000104681103710803782740000)
 (.leaf 10936647680000000000108702015210399321000000112040345610717663661114890620109174738800001120403456107857464811161388841085481824000011204034560000000000109986599410506637430000112040345600000000001054276898000000000000001120403456000000000000000000000000000000000011204034560000000000000000000000000000000000112040345600000000001085176545106818044000001120403456000000000000000000000000000000000011204034560000000000000000000010476247130000112040345600000000000000000000108229349100001120403456106946375100000000001048989253000011204034560000000000000000000000000000000000112040345600000000000000000000103795198200001120403456000000000000000000001037456237000011204034560000000000000000000000000000000000))
 (.node 1 (.leaf 11204034560000000000107777171110402996010000112040345600000000000000000000105994015700001120403456000000000000000000001050452920036611204034560000000000000000000010636393640367112040345600000000000000000000105321777100001120403456000000000000000000001070066860000011204034560000000000000000000010504413770000112040345600000000000000000000107833070200001120403456000000000000000000001074034525000011204034560000000000000000000010722015390368112040345600000000000000000000105334086600001120403456000000000000000000000000000000000011204034560000000000102500736700000000000000112040345600000000001116340722108330271400001120403456000000000011162893421031932714000011204034560000000000110803240910426414150000)
 (.leaf 11204034560000000000110791253010673363820000112040345600000000001116047737107573617300001120403456000000000011158568301082973385000011204034561049378286110814070010660951590369112040345600000000001048904833109104244700001120403456104188417310423885631090692292037011204034560000000000000000000010950433260371112040345600000000000000000000109490228803721120403456000000000000000000001097283972000011204034560000000000000000000010958147130373112040345600000000000000000000109560405100001120403456000000000000000000001096136291037411204034560000000000000000000010996367580375112040345600000000000000000000109732547100001120403456103749216611137782641101429376037611004805120000000000108233763110680455950000))))
 (.node 4 (.node 2 (.node 1 (.leaf 11067719680000000000000000000010715452700000111568486400000000000000000000107429919400001077936128000000000000000000000000000000000010779361280000000000000000000010442150190000112040345600000000000000000000108355604300001120403456000000000000000000001091295891000011204034560000000000000000000010868423130000112040345600000000000000000000106763429900001120403456000000000000000000001075399566000011200102400000000000000000000010675864670000111568486400000000000000000000106187452500001100480512000000000000000000001038990988000010779361280000000000000000000000000000000000109943193600000000000000000000106242063300001108344832000000000000000000001035593890000011020533760000000000000000000010542163940000)
 (.leaf 10825150290000000000000000000000000000000000111154655400000000000000000000105533805200001120403456000000000000000000000000000000000011204034560000000000000000000000000000000000112040345600000000000000000000000000000000001120403456000000000000000000000000000000000010089817700000000000000000000000000000000000100898177000000000000000000000000000000000001099431936000000000010321880151032065679000010936647680000000000102503421110402802440000112040345600000000001056380761106540726500001120403456000000000010251147411069650528000011204034560000000000102500736710616180670000112040345610663631711024953680107850701900001120403456000000000000000000001074247482000011204034561100731855100801540310636318140377))
 (.node 1 (.leaf 11204034560000000000000000000010782947160000112040345600000000000000000000109454109400001120403456000000000000000000001080890353000011204034560000000000000000000010899036090378112040345600000000000000000000109323070603791120403456000000000000000000001087701341038011204034560000000000000000000010708816870381112040345600000000000000000000107460193103821120403456000000000000000000001072049201000011204034560000000000000000000010726830550000112040345600000000000000000000108351326503831120403456000000000000000000001049444115000011204034560000000000000000000010595333190000112040345600000000000000000000104052306400001120403456000000000000000000001047167119000011204034560000000000109103703710141712920000)
 (.leaf 11204034560979172550000000000000000000000000112040345610506064790000000000102554077600001120403456000000000000000000001029700154000011204034561062153365000000000010599818990000112040345610540206760000000000104337726600001120403456000000000000000000001057562203000011204034560000000000000000000010465601570000112040345600000000000000000000105858027700001120403456000000000000000000000000000000000011204034560000000000000000000000000000000000112040345600000000001024309435104868208800001120403456000000000010371406501030296231000011204034560000000000105763569700000000000000112040345600000000000000000000104809842300001120403456000000000010250610540000000000000011204034560000000000000000000010387613760000)))
 (.node 2 (.node 1 (.leaf 11204034560000000000103300674400000000000000112040345600000000001053693051000000000000001120403456000000000011002261800000000000000011204034560000000000110860891610751021210000112040345610812938191109747355106823110000001120403456107005824410974640731026570937000011204034561112138765107697521310946302320000112040345611169152691080346175109747435800001120403456111498582310799657481105065460038411204034561111362210108083187510899256560385112040345600000000001102172756106148756800001120403456000000000010952549341050408798000011204034560000000000109398343000000000000000112040345610506586561109208334106024031300001120403456108022318111148376411079742598000011204034560000000000104683788010413042420000)
 (.leaf 11204034560000000000000000000000000000000000112040345600000000000000000000108357899900001120403456000000000000000000001042713878000011204034560000000000104809281610487003590000112040345610391251931046361407000000000000001120403456105072975810402813440000000000000011204034561079440939000000000000000000000000112040345600000000000000000000000000000000001120403456000000000010924918310000000000000011204034560000000000000000000000000000000000112040345600000000000000000000000000000000001120403456000000000000000000001047875311000011204034560000000000000000000000000000000000112040345600000000000000000000102960829100001120403456000000000000000000000000000000000011204034560000000000000000000010455393040000))
 (.node 1 (.leaf 11204034560000000000000000000000000000000000112040345600000000000000000000000000000000001120403456000000000000000000000000000000000011204034560000000000000000000010328966360000112040345600000000001090098351104078731100001120403456104360424011092830721073944003000011204034561066639928110230723600000000000000112040345600000000001090642772000000000000001120403456000000000010948507070000000000000011204034560000000000000000000010297187890000112040345600000000000000000000000000000000001120403456000000000000000000000000000000000011204034560000000000000000000010397424000000112040345610354444060000000000000000000000001120403456000000000010760012960000000000000011204034560000000000104897529800000000000000)
 (.leaf 11204034560000000000105044162610466563490000112040345600000000001024309435105036878500001120403456000000000010164040110000000000000011204034560000000000000000000000000000000000112040345600000000001025087898000000000000001120403456000000000010385230920000000000000011204034560000000000102932917800000000000000112040345600000000001051012052104026597300001120403456000000000010642039771057271264000011204034561101563056108583064700000000000000112040345610260443331105008630000000000000001120403456105441554510993185850000000000000011204034560975977094110176438810414471330000112040345600000000001115601712000000000000001120403456000000000011179059180000000000000011204034560000000000111260503910456159930000)))))
 (.node 8 (.node 4 (.node 2 (.node 1 (.leaf 11204034560000000000110550880110256875260000110991769600000000001074083240000000000000001114112000000000000010688403601074243105000011204034560000000000108409944810322961250000112040345600000000001088296269104780113000001119354880000000000010925849441028116565000011167334400000000000108559912100000000000000110755840000000000001041663787000000000000001090519040000000000010335033490000000000000011179130880000000000105399168500000000000000112040345600000000001101386482102767486700001120403456000000000010606706951041628970000011204034560000000000106289199800000000000000112040345600000000001045334642000000000000001120403456000000000010847501941007720581000011204034560000000000106428618510314102100000)
 (.leaf 11120148480000000000107560703110665904900000110362624000000000001061137102107986105900001086324736000000000010249805230000000000000010779361280000000000104185840300000000000000111044198400000000001103967709107739890400001120403456106463349011156824521091046350038611204034560000000000111578927610895366140387112040345600000000001115771804109319957903881120403456106798642511152028861096257463000011204034560000000000110844093410828788040000112040345600000000001095597398000000000000001120403456000000000010643130291036602759000011204034560000000000110308538410337206250000112040345610471500711111849304105162842500001120403456106686988510797027691063153166000011204034560000000000000000000010579682010000))
 (.node 1 (.leaf 11193548800000000000110733909010620326740000111201484800000000001103379667107496505400001120403456000000000010808213901083956841000011196170240000000000000000000010807708020000111896166400000000000000000000106578763100001120403456000000000000000000001059104532000011196170240000000000000000000010661813890000112040345600000000001049273932106566516900001120403456105940210300000000000000000000000011204034560000000000000000000000000000000000112040345600000000000000000000000000000000001120403456000000000000000000000000000000000011204034560000000000000000000010441084540389112040345600000000000000000000107671727800001120403456000000000000000000001069685083039011204034560000000000000000000010770724120391)
 (.leaf 11204034560000000000000000000010768904130000112040345600000000000000000000107197870000001120403456000000000000000000000000000000000011204034560000000000000000000010522889710000112040345600000000000000000000104177808600001120403456000000000000000000001067609890000011204034560000000000000000000010624370540000112040345600000000000000000000000000000000001120403456000000000000000000001036328990000011204034560000000000000000000010252365600000112040345610607483061056179434000000000000001120403456103722212011146418721057992534000011204034561034483810111412500210654711490000112040345600000000001105222487108571685800001120403456000000000000000000001093206959039211204034560000000000108178733810911949640000)))
 (.node 2 (.node 1 (.leaf 11204034560000000000108246073310929073160000112040345600000000001080568893109452839100001120403456000000000010804942341094321537039311204034560000000000102506105410894452350394112040345600000000000000000000109474029803951120403456000000000000000000001102209452039611204034560000000000000000000010974568200397111489843200000000000000000000107886638400001120403456000000000000000000001089998542039811204034560000000000000000000010759250090000112040345600000000000000000000108370334900001107558400000000000000000000001064515705000010779361280000000000000000000000000000000000109366476800000000000000000000106349612400001069735760000000000000000000000000000000000011204034560000000000000000000010507066780000)
 (.leaf 11204034560000000000000000000010767330100000112040345600000000000000000000107027207300001120403456000000000000000000001062788288000011204034560000000000000000000000000000000000112040345600000000000000000000000000000000001120403456000000000000000000001032397046000011204034560000000000000000000000000000000000108632473600000000001016726133000000000000001093664768000000000000000000001050788082000011204034560000000000102489999310881220820000112040345600000000000000000000109121118400001120403456000000000000000000001070045986000011204034560000000000000000000010749881240399112040345600000000001027503817107800949800001120403456109501471500000000001074971578000011204034561103979695103849624910821934830400))
 (.node 1 (.leaf 11204034560000000000000000000010791983180000112040345600000000000000000000109646757400001120403456000000000000000000001079835118040111204034560000000000000000000010941122670402112040345600000000000000000000108748736600001120403456000000000000000000001073665861040311204034560000000000109161511610742385570000112040345600000000001069841960106766947400001120403456000000000000000000001073881318000011204034560000000000000000000010691758370000112040345600000000000000000000106930155700001120403456000000000000000000001066638974000011204034560990821575108844055310573280130000112040345600000000000000000000000000000000001120403456000000000000000000001049101126000011204034560000000000000000000010078100760000)
 (.leaf 11204034560000000000000000000010410643180000112040345600000000000000000000107701887500001120403456000000000000000000001051071482000011204034560000000000000000000010510522660000112040345600000000000000000000000000000000001120403456000000000000000000001058814858000011204034560000000000109148865800000000000000112040345600000000000000000000000000000000001120403456000000000000000000001069839651000011204034560000000000000000000010406177840000112040345600000000001046837880000000000000001120403456000000000010249805230000000000000011204034560000000000000000000010214727070000112040345600000000001033449662104249919400001120403456000000000010588403010000000000000011204034560000000000108628824600000000000000))))
 (.node 4 (.node 2 (.node 1 (.leaf 11204034561087174823110116365910719468050000112040345610576693851109120804000000000000001120403456000000000000000000000000000000000011204034560000000000000000000010802958960000112040345600000000000000000000108299467300001120403456000000000000000000001089882375000011204034560000000000000000000010118884710000112040345610727605250000000000104647687900001120403456106746986300000000001042475020000011204034560000000000000000000000000000000000112040345600000000000000000000000000000000001120403456000000000010931672190000000000000011204034560000000000000000000000000000000000112040345600000000000000000000000000000000001120403456000000000000000000000000000000000011204034560000000000000000000010394001830000)
 (.leaf 11204034560000000000000000000000000000000000112040345600000000000000000000103222859300001120403456000000000000000000000000000000000011204034560000000000000000000000000000000000112040345600000000001089992655000000000000001120403456000000000000000000000000000000000011204034560000000000000000000000000000000000112040345600000000001074824793103549328200001120403456000000000000000000000000000000000011204034560000000000000000000000000000000000112040345600000000000000000000000000000000001120403456000000000000000000001040700975000011204034560000000000000000000010273871900000112040345600000000000000000000106883994200001120403456000000000000000000000000000000000011204034560000000000000000000000000000000000))
 (.node 1 (.leaf 11204034560000000000000000000000000000000000112040345600000000000000000000102968257500001120403456000000000000000000000000000000000011204034560000000000000000000000000000000000112040345600000000001082701906000000000000001120403456000000000000000000000000000000000011204034560000000000000000000000000000000000112040345610825536001025329490104280692800001120403456000000000000000000001048725219000011204034560000000000000000000010321135740000112040345600000000000000000000104455807400001120403456000000000000000000001032667859000011204034561067835170000000000000000000000000112040345600000000000000000000000000000000001120403456000000000000000000000000000000000011204034560000000000000000000000000000000000)
 (.leaf 11204034560000000000104193893310224416960000112040345600000000001038039908105478989500001120403456000000000010334228191032852712000011204034560000000000108960552100000000000000112040345600000000001102176112103224534400001120403456107312008610991814841032772100000011204034561109859742108245171610348130550000112040345610856222591105673480000000000000001120403456000000000011095895180000000000000011204034560000000000111426496100000000000000112040345600000000001114397055000000000000001120403456000000000011133345070000000000000011204034560000000000110824139000000000000000112040345600000000001106033456105315721100001120403456000000000011029290941037905161000011204034560000000000110559121900000000000000)))
 (.node 2 (.node 1 (.leaf 11204034560000000000111162601010309886160000110048051200000000001071460123000000000000001120010240000000000010863371091043008355000011204034560000000000107944314100000000000000111044198400000000001091045845000000000000001120403456000000000010697824011073817476000011204034561043918779108673452010836242750000112040345600000000001054682907000000000000001120403456000000000010762626010000000000000011204034560000000000108791228010534197310000112040345600000000001074018648000000000000001120403456000000000010249805230000000000000011204034560000000000106831858900000000000000111122841600000000001025034211104941292800001100480512000000000000000000000000000000000011204034560000000000111562724510930780690000)
 (.leaf 11204034560000000000111423180010921427040404112040345600000000001115540161106248379200001120403456000000000011088262070000000000000011204034560000000000108839064000000000000000112040345600000000000000000000000000000000001120403456000000000010879630310000000000000011204034560000000000109939576000000000000000112040345600000000001103890009102408880300001120403456000000000000000000001085731841000011204034560000000000000000000010605586360000112040345600000000000000000000105122729800001106771968000000000010806200631066858377000011189616640000000000109345201210742360600000111817523200000000001086702223104283738300001119354880000000000010913669191050160546000011196170240000000000108247583310760908080000))
 (.node 1 (.leaf 11020533760000000000000000000010260786060000110205337600000000001074527837104519599300001116340224000000000010840451321051455543000011204034560000000000107659604810584261190000112040345600000000000000000000105943541000001120403456000000000000000000001030291171000011204034560000000000000000000010464916470000112040345600000000000000000000100133360300001120403456000000000000000000000000000000000011204034560000000000000000000000000000000000112040345600000000000000000000000000000000001120403456000000000000000000001034757805040511204034561053578127000000000010641953180406112040345600000000000000000000106098460500001120403456000000000000000000001087519340000011204034560000000000000000000010531948170000)
 (.leaf 11204034561062303840000000000010674231040000112040345600000000000000000000000000000000001120403456000000000010443884071023716108000011204034560000000000102511474110470877540000112040345600000000001063339950105830314000001120403456000000000010333691311028203353000011204034560000000000000000000010261246950000112040345610800321141083246956102609216900001120403456000000000011105276791025436617000011204034560000000000111704212810546590850000112040345600000000001116717869108037053800001120403456000000000011168992991070865145000011204034560000000000111665300110780427920000112040345600000000001111595706107128875604071120403456000000000011079484701061768887000011204034561059541421110524796810580116500408))))))
 (.node 16 (.node 8 (.node 4 (.node 2 (.node 1 (.leaf 11204034560000000000110881545910460995330409112040345600000000001116596889104095058004101120403456000000000010700567091085036078000011204034560000000000103836203110876553740000112040345600000000000000000000109260459100001120403456000000000000000000001090947795041111204034560000000000000000000011002984140412112040345600000000000000000000108834490804131120403456000000000000000000001090295142041411204034560000000000000000000010956457660415108222962700000000000000000000000000000000001093664768000000000000000000001028747977000011204034560000000000000000000010963455620000112040345600000000000000000000109666934100001120403456000000000000000000001095962085041611204034560000000000000000000010805106670417)
 (.leaf 11204034560000000000000000000010869260810000112040345600000000000000000000108880172700001120403456000000000000000000001085996241000011196170240000000000000000000010805305200000111489843200000000000000000000107199982400001077936128000000000000000000001030788727000010863247360000000000000000000000000000000000107793612800000000000000000000000000000000001082495253000000000000000000000000000000000010994092860000000000000000000010330161920000110899922200000000000000000000107373016000001105057231000000000000000000001061279094000011079956820000000000000000000010627908560000110855528100000000000000000000105949305400001120403456000000000000000000001067333901000011204034560000000000000000000010758414000418))
 (.node 1 (.leaf 11204034560000000000000000000010425575360000112040345600000000000000000000000000000000001120403456000000000000000000001067438257000011063857780000000000000000000009659809750000106820207100000000000000000000000000000000001099431936000000000010578034691029692638000010905190400000000000103591926810452087560000100898177000000000000000000000000000000000001008981770000000000000000000000000000000000010779361280000000000104933097500000000000000112040345600000000001050287276105806462400001120403456000000000010333959751075893626041911204034560000000000000000000010810877820000112040345610237773961008122777106943191204201120403456000000000000000000001092059349000011204034560000000000000000000010830590910000)
 (.leaf 11193548800000000000000000000010705635720000112040345600000000000000000000106608411804211120403456000000000000000000000000000000000011204034560000000000000000000010859900230000112040345600000000000000000000108500753900001120403456000000000000000000001075511065000011204034560000000000000000000010671084420000112040345600000000000000000000107410471904221120403456000000000000000000001086626512000011193548800000000000000000000010771325520000111961702400000000000000000000108621698000001118175232000000000000000000001070639397000011181752320000000000000000000010741492360000112040345600000000000000000000107153465804231120403456000000000000000000001082252228042411204034560000000000000000000010791255400425)))
 (.node 2 (.node 1 (.leaf 11204034560000000000000000000010655658440000112040345600000000000000000000108466521200001120403456000000000000000000001048797781000011204034560000000000000000000010527321850000112040345600000000000000000000104080723800001120403456000000000000000000000000000000000011204034560000000000000000000010430817710000112040345600000000000000000000000000000000001120403456000000000000000000001055720736000011204034560000000000000000000000000000000000112040345610476955990000000000103230372000001120403456000000000000000000000000000000000011204034560000000000000000000010467004370000112040345600000000000000000000103133560900001120403456000000000000000000001040602847000011204034560000000000000000000010529063370000)
 (.leaf 11204034560000000000000000000000000000000000112040345600000000000000000000000000000000001120403456000000000010970382470000000000000011204034560000000000104819347910671268490000112040345600000000000000000000102715826900001120403456000000000000000000000000000000000011204034560000000000000000000000000000000000112040345600000000000000000000104379502800001120403456000000000010937510660000000000000011204034560000000000108588223700000000000000112040345610897737861110635315102424375200001120403456110889953410976564871077774743000011204034561110730211110244307910922991280000112040345611033579251090679682107607492200001120403456108773454610974631301083673688000011204034561090664862110923724910678901040000))
 (.node 1 (.leaf 11204034561049407814110906384110645579620000112040345610771827681107597145105583472000001120403456109437621110980940581033856235000011204034560000000000109615733800000000000000112040345609063771491108433122103195100100001120403456108366304310926856081048936972000011204034561081215315109680378510606390300000112040345610740524421101819911106610851500001120403456109095585911024458060000000000000011204034560000000000110470323210487529040000112040345600000000001099954232104305096400001120403456000000000011004868560000000000000011204034561067767860110329724900000000000000112040345600000000001088073761000000000000001120403456106915953810956809700000000000000011204034560000000000109104322310488023900000)
 (.leaf 11204034560000000000104369718610348262340000112040345600000000000000000000104975015200001120403456000000000010704736220000000000000011204034560000000000103182562810591943970000112040345600000000000000000000000000000000001120403456000000000000000000000000000000000011204034560000000000000000000000000000000000112040345600000000000000000000000000000000001120403456000000000000000000000000000000000011204034560000000000109464162100000000000000112040345600000000000000000000000000000000001120403456000000000000000000000000000000000011204034560000000000109730353600000000000000112040345600000000000000000000000000000000001120403456000000000000000000000000000000000011204034560000000000109635289700000000000000))))
 (.node 4 (.node 2 (.node 1 (.leaf 11204034560000000000000000000000000000000000112040345600000000000000000000000000000000001120403456000000000000000000000000000000000011204034560000000000000000000000000000000000112040345600000000001025061054000000000000001120403456000000000010334765060000000000000011204034560000000000102503421100000000000000112040345600000000000000000000000000000000001120403456000000000000000000001038933487000011204034560000000000000000000000000000000000112040345600000000000000000000106305265200001120403456000000000000000000000000000000000011204034560000000000000000000000000000000000112040345600000000000000000000000000000000001120403456000000000000000000000000000000000011204034560000000000000000000000000000000000)
 (.leaf 11204034560000000000000000000000000000000000112040345600000000000000000000000000000000001120403456000000000000000000000000000000000011204034560000000000102476577500000000000000112040345600000000000000000000000000000000001120403456000000000000000000000000000000000011204034560000000000102508789800000000000000112040345600000000001057118958105007214500001120403456000000000000000000001055388820000011204034560000000000104081150410288982350000112040345600000000001024819462106579321900001120403456000000000010946166650000000000000011204034560000000000110204933910644518590000112040345610787484181109468434000000000000001120403456102149998911119344221039096844000011204034561073468313111002116410487462210000))
 (.node 1 (.leaf 11204034560945704017111345740000000000000000112040345600000000001106000321000000000000001120403456000000000011011228171051609554000011204034560000000000110667481710369363470000112040345600000000001101661785103778160000001120403456000000000011088819911051639253000011204034560000000000111012222110380991300000112040345600000000001110911615000000000000001120403456000000000011111909290000000000000011204034560000000000111073899300000000000000112040345600000000001105349575000000000000001086324736000000000010627728800000000000000011067719680000000000108330274000000000000000111122841600000000001058873855000000000000001086324736000000000000000000000000000000000011036262400000000000000000000000000000000000)
 (.leaf 11204034560000000000103841571800000000000000112040345600000000001025007367000000000000001120403456000000000010594627351074263685000011181752320000000000103343624010523771530000111817523200000000001041844981105860331500001120403456102623358010488209471050294370000011181752320000000000000000000010706329580000110991769600000000000000000000107020672800001086324736000000000000000000001045989728000011004805120000000000110040554610413944040000111280128000000000001109845502103763403900001116340224000000000011098205981049260450000011067719680000000000110540404810364862790000108632473600000000001076420726000000000000001120403456000000000011100734101096760708042611204034560000000000111556855110950782520427)))
 (.node 2 (.node 1 (.leaf 11196170240000000000111576335010877138570000112040345600000000001116692873101771212800001120403456000000000011084453121061256416000011204034560000000000103096663410821123620428112040345600000000001108650964105999291804291120403456000000000011125976201032530723000011204034560000000000110739398310317101710000112040345600000000001099024355107527952200001120403456000000000000000000001057498555000010968104960000000000000000000010276907400000109051904000000000000000000000104651280400001120403456000000000000000000001054195900043011204034560000000000000000000010790709270000111961702400000000000000000000107849070700001120010240000000000000000000001069951435000010968104960000000000000000000000000000000000)
 (.leaf 11051991040000000000108266373800000000000000109051904000000000001065545315000000000000001099431936000000000010967113010000000000000010863247360000000000108539255200000000000000109681049600000000001096101659105805538600001116733440000000000011037884021084090441000011204034560000000000109901559910857119440000112001024000000000001089758822108007428600001118175232000000000010962217211067063283000011196170240000000000107908998110327774170000112040345600000000001045864802000000000000001120403456000000000000000000001057032115000011204034560000000000000000000010616793000000112040345600000000000000000000000000000000001120403456000000000000000000000000000000000011204034560000000000000000000000000000000000))
 (.node 1 (.leaf 11204034560000000000000000000010783273880000112040345600000000000000000000108038900600001120403456000000000000000000001074749739000011204034560000000000000000000010683314670000112040345600000000000000000000108534528404311120403456000000000000000000001071660529000011204034560000000000000000000010591359100000112040345600000000000000000000106455575900001120403456100823015100000000001057713794000011204034560000000000000000000010664606070000112040345600000000000000000000107537268100001120403456000000000011169190641058641805043211204034560000000000111637543010550290790433112040345600000000001116851654107531208800001120403456000000000011170038021059630842000011204034560000000000111652980710845593520000)
 (.leaf 11204034560000000000111039951710526052680434112040345600000000001116794755107776844900001120403456106508117311100524381067297767000011204034560000000000000000000010863935700000112040345600000000000000000000108497784700001120403456000000000000000000001084820919000011204034560000000000107181663810992468580000112040345600000000001074503510109370858300001120403456105947952910662013041091757224043511204034560000000000102986604910952312460436112040345600000000000000000000109504443704371120403456092136282710250342111083204660043811204034560000000000000000000010876423970439112040345600000000000000000000109166016804401120403456000000000000000000001091757431000011204034561054388869107846544910994520750441)))))
 (.node 8 (.node 4 (.node 2 (.node 1 (.leaf 11204034561082544657107081503910928705500442112040345600000000000000000000110057528204431120403456000000000000000000001081464965000011204034561071451432000000000010744698080000110677196800000000000000000000103178264500001090519040000000000000000000000000000000000011181752320000000000000000000010779554070000109366476800000000000000000000102523040400001120403456000000000000000000001031426190000011204034560000000000000000000010684696730000112040345600000000000000000000104581297500001120403456000000000000000000001058950903000011204034560000000000000000000010277399160000100898177000000000000000000000000000000000001008981770000000000000000000000000000000000010968104960000000000106325774210369640170000)
 (.leaf 11083448320000000000106255981010530141590000111201484800000000001055072138106564108500001120403456000000000010261079521076515146000011204034560000000000000000000010863484750444112040345600000000000000000000107415896100001120403456106770888800000000001083391017000011204034561012212659104420721310711422110000112040345611107116541060080137108372500600001120403456111893084110664009531083250387000011204034561089880646104656273410778497480000112040345600000000000000000000107697215300001100480512000000000000000000001047120932000011075584000000000000000000000010630934110000110048051200000000000000000000105018458600001091529123000000000000000000000000000000000010885681640000000000000000000000000000000000))
 (.node 1 (.leaf 11175198720000000000000000000010394593280000112040345600000000000000000000107850686500001120403456000000000000000000001091802554000011189616640000000000000000000010843598380000110677196800000000000000000000107158882800001116078080000000000000000000001076408557000011163402240000000000000000000010693950990000112040345600000000000000000000107442678200001120403456000000000000000000001070517041000011204034561092954496000000000010678994310000112040345610390696271088633071106198712600001120403456000000000000000000001080144269044511204034561095506737103343624010750889980000112040345610765403980987681417104079985404461120403456000000000000000000001061312884000011204034560000000000000000000010272384250000)
 (.leaf 11204034560000000000000000000010578617150000112040345600000000000000000000000000000000001120403456000000000000000000000000000000000011204034560000000000000000000000000000000000112040345600000000000000000000000000000000001120403456000000000000000000000000000000000011204034560000000000000000000000000000000000112040345600000000000000000000000000000000001120403456000000000000000000000000000000000011204034560000000000000000000000000000000000112040345600000000000000000000103209414300001120403456000000000000000000000000000000000011204034560000000000109972742500000000000000112040345611091597571051092582106737214900001120403456107905992010106997571078686162000011204034561037047100106124615410821646590000)))
 (.node 2 (.node 1 (.leaf 11204034561016127522000000000010721382100000112040345610966669731106596069107092920700001120403456110680415110922418501075885612000011204034560000000000109922610110466792630000112040345600000000001097481899000000000000001120403456108468428911111427211064813343000011204034560000000000110012431110328769560000112040345600000000001099915330000000000000001120403456109110102211110866221033146213000011204034560000000000110839967300000000000000112040345610654075321107619820104932078500001120403456108763218010990461650000000000000011204034561065375840109848171600000000000000112040345610950019481113721904000000000000001120403456000000000010668614880000000000000011204034560000000000106205984800000000000000)
 (.leaf 11204034560000000000000000000000000000000000112040345600000000000000000000000000000000001120403456000000000000000000000000000000000011204034560000000000000000000000000000000000112040345600000000000000000000000000000000001120403456000000000000000000000000000000000011204034560000000000000000000000000000000000112040345600000000000000000000000000000000001120403456000000000000000000000000000000000011204034560000000000000000000000000000000000112040345600000000000000000000102223951000001120403456105819825310644204030000000000000011204034560000000000000000000010400319840000112040345600000000000000000000000000000000001120403456000000000000000000000000000000000011204034560000000000000000000000000000000000))
 (.node 1 (.leaf 11204034560000000000000000000000000000000000112040345600000000000000000000000000000000001120403456000000000000000000000000000000000011204034560000000000000000000000000000000000112040345600000000000000000000000000000000001120403456000000000000000000000000000000000011204034560000000000000000000000000000000000112040345600000000000000000000000000000000001120403456000000000000000000000000000000000011204034560000000000000000000000000000000000112040345600000000000000000000000000000000001120403456000000000000000000000000000000000011204034560000000000104319386900000000000000112040345600000000001040704130000000000000001120403456000000000010819693710000000000000011204034560000000000109408126200000000000000)
 (.leaf 11204034560000000000110765987610338173600000112040345600000000001099599131102584115900001120403456000000000011081300311021284758000011204034560000000000110866103000000000000000112040345600000000001112259140102460103400001120010240000000000010162429490000000000000011204034560000000000107535830910779506720000112001024000000000001083760339000000000000001120010240000000000010528307020000000000000011112284160000000000103339597500000000000000111358771200000000001049626254104795382300001117913088000000000000000000000000000000000011067719680000000000000000000010663071490000108632473600000000000000000000100616554600001054883696000000000000000000000000000000000011196170240000000000102508789810795676020000))))
 (.node 4 (.node 2 (.node 1 (.leaf 11004805120000000000000000000010748686700000105259521700000000000000000000000000000000001093664768000000000010934601181044896421000011036262400000000000110215369310771335880000109051904000000000001089946534104934748800001093664768000000000010896950691067750829000011112284160000000000110218665010916723780000109681049600000000001089003009100221399100001090519040000000000010825450391049626824000011204034560000000000109643919510733216730000112040345600000000001095123547107981792700001120403456000000000000000000001057811746044711204034560000000000100574712310919675440448112040345600000000000000000000107248534904491120010240000000000000000000001048271772045011156848640000000000000000000000000000000000)
 (.leaf 10994319360000000000000000000010492245880000110991769600000000000000000000000000000000001117913088000000000000000000001067847582000011200102400000000000000000000010608218930000111935488000000000000000000000105032878000001109917696000000000000000000001035511263000010968104960000000000000000000000000000000000110362624000000000001064764336104214562900001067125393000000000000000000000000000000000011120148480000000000107723987410556043720000111856844800000000001073429768106057889800001120403456000000000000000000000000000000000011204034561028448173000000000010503986590000112040345600000000000000000000105791132600001120403456000000000000000000001073174272000011204034560000000000000000000010717213080000))
 (.node 1 (.leaf 11204034560000000000000000000010668382180000112040345600000000000000000000108352267904511120403456000000000000000000001079510337000011204034560000000000000000000010862023560000112040345600000000000000000000107702258500001120403456000000000000000000001049615785000011204034560000000000000000000010630734040000112040345600000000000000000000000000000000001120403456000000000000000000000000000000000011204034560000000000111233361510794824560000112040345600000000001116760152107753680000001120403456000000000011169994381063372945000011204034560000000000111687212710724712980000112040345600000000001116539820108251856300001120403456000000000011170091761048343557000011204034560000000000000000000010957457120000)
 (.leaf 11204034560000000000000000000010979789700000112040345600000000000000000000109162670300001120403456000000000000000000001093632999000011204034560000000000000000000010984952670000112040345600000000001037221180109449697704521120403456000000000010569209871098917935045311204034561033036674106635649410958272580454112040345600000000001040234368109572967300001120403456000000000010215579711094071951000011204034560000000000104708618310929294950455112040345600000000001056004951108389549600001120403456111586479410852692391101688478000011204034561116875882108364646310964448730456112040345611184238221075130139108665842700001120403456111691335810810390741095624959000011204034561117464808107799149310922696050000)))
 (.node 2 (.node 1 (.leaf 11204034560000000000000000000010985916380457112040345600000000000000000000109537529804581120403456000000000000000000001099660580045911204034560000000000000000000010967164850460112040345600000000000000000000109875212104611117519872000000000000000000001079675330000011204034560000000000000000000010807001560000109366476800000000000000000000105930793200001074536687000000000000000000000000000000000011007783600000000000000000000010362715570000110248030400000000000000000000101531396700001086883858000000000000000000000000000000000010089817700000000000000000000000000000000000100898177000000000000000000000000000000000001086324736000000000000000000001036256328000011051991040000000000102506105410671779610000)
 (.leaf 11156848640000000000103845598310575609360000112040345600000000001036026642107821800204621120403456000000000010484015171084496451046311204034560000000000000000000010774998170464111751987200000000001050921455106256010804651120403456000000000010253026461086785316000011204034560000000000000000000010882746400000112040345611042658471062715838109150271200001120403456000000000000000000001085690767000011204034560000000000000000000010522274720466112040345600000000000000000000105838744404671120403456000000000000000000001069394612046811204034560000000000000000000010862893520000108569353500000000000000000000000000000000001079507440000000000000000000000000000000000010863247360000000000000000000000000000000000))
 (.node 1 (.leaf 10779361280000000000000000000010602759240000106158862700000000000000000000000000000000001100480512000000000000000000000000000000000011196170240000000000000000000010584013290000111817523200000000000000000000000000000000001120403456000000000010344831391035032210046911204034560000000000109831258110562617030470112040345600000000000000000000103369539800001120403456000000000010942931801075429837000011204034561067080690109083571010584090510000112040345600000000001074138186107623589500001120403456000000000010870493021079718610000011204034560000000000000000000010680365620471112040345600000000000000000000102261133200001120403456000000000000000000001052564337000011204034560000000000000000000010598711400000)
 (.leaf 11204034560000000000000000000000000000000000112040345600000000000000000000000000000000001120403456000000000000000000000000000000000011204034560000000000000000000000000000000000112040345600000000000000000000000000000000001120403456000000000000000000000000000000000011204034560000000000000000000000000000000000112040345600000000000000000000000000000000001120403456000000000000000000000000000000000011204034560000000000000000000010477069610000112040345600000000000000000000104276589700001120403456000000000000000000000000000000000011204034560000000000000000000010295684900000112040345600000000000000000000000000000000001120403456000000000000000000000000000000000011204034560000000000109171011700000000000000))))))))))
 (.node 256 (.node 128 (.node 64 (.node 32 (.node 16 (.node 8 (.node 4 (.node 2 (.node 1 (.leaf 11204034560000000000000000000000000000000000112040345600000000000000000000000000000000001120403456000000000000000000000000000000000011204034560000000000109371489010320675230000112040345610879279731107353115000000000000001120403456109014243611059860600000000000000011204034560000000000111475771310765127200000112040345610729060841109674636105956879000001120403456108582121611157100691046312215000011204034561112924768104417365910509835550000112040345611112975850000000000000000000000001120403456111120991110349529011052705314000011204034561099160324107106082510568310270000112040345611019707581043992465106044112200001120403456109904156910329799001043199472000011204034561076758208104751568010317650330000)
 (.leaf 11204034561106602714104458302310365987280000112040345600000000001091089570106574403300001120403456105204616611119584351057532455000011204034560000000000110909409210759251120000112040345610399852601107436057103790132400001120403456000000000011074003531040729018000011204034561097328265111602861310616932520000112040345610914697651114516698107537362400001120403456000000000011118054741042982023000011204034560000000000000000000000000000000000112040345600000000001051968353000000000000001120403456000000000000000000000000000000000011204034560000000000000000000000000000000000112040345600000000000000000000000000000000001120403456000000000000000000000000000000000011204034560000000000000000000000000000000000))
 (.node 1 (.leaf 11204034560000000000000000000000000000000000112040345600000000000000000000000000000000001120403456000000000000000000000000000000000011204034560000000000000000000000000000000000112040345600000000000000000000000000000000001120403456000000000000000000000000000000000011204034560000000000000000000000000000000000112040345600000000000000000000000000000000001120403456000000000000000000000000000000000011204034560000000000000000000000000000000000112040345600000000000000000000102820994300001120403456000000000000000000000000000000000011204034560000000000000000000000000000000000112040345600000000000000000000105089388700001120403456000000000000000000001069817914000011204034560000000000107641653200000000000000)
 (.leaf 11204034560000000000107145257300000000000000112040345600000000000000000000000000000000001120403456000000000000000000000000000000000011204034560000000000000000000000000000000000112040345600000000000000000000000000000000001120403456000000000000000000000000000000000011204034560000000000000000000000000000000000112040345600000000000000000000000000000000001120403456000000000000000000000000000000000011204034560000000000000000000000000000000000112040345600000000000000000000000000000000001120403456000000000000000000000000000000000011204034560000000000000000000000000000000000112040345600000000000000000000000000000000001120403456000000000000000000000000000000000011204034560000000000105020674510039038900000)))
 (.node 2 (.node 1 (.leaf 11204034560000000000107713669400000000000000111358771200000000001096565863105748523600001120403456000000000010855584371051218190000011004805120000000000000000000000000000000000111411200000000000000000000000000000000000001120403456000000000000000000000000000000000011204034560000000000102511474100000000000000112040345600000000001083286382000000000000001096810496000000000000000000001075353064000010968104960000000000102503421100000000000000109366476800000000000000000000000000000000001102053376000000000000000000000000000000000010905190400000000000000000000000000000000000112040345600000000000000000000105367741100001120403456000000000010946275701085861245000011200102400000000000110880895810752410570000)
 (.leaf 11204034560000000000000000000010766304680472110205337600000000001073695687105500887400001110441984000000000000000000001059245864000011135877120000000000000000000010677988200000110677196800000000000000000000104937636200001079443309000000000000000000000000000000000010863247360000000000107470315800000000000000110519910400000000001094227958000000000000001120403456000000000000000000000000000000000011204034560000000000000000000000000000000000112040345600000000001052716617106458523500001120403456000000000000000000000000000000000011204034560000000000000000000010601774580473112040345600000000000000000000106308571304741120403456000000000000000000001077590113047511204034560000000000000000000010770567060000))
 (.node 1 (.leaf 11204034560000000000000000000010782689610000112040345600000000000000000000106126247000001120403456000000000000000000001058398089000011204034560000000000000000000010664838350000112040345610566717110000000000106860471400001120403456000000000011171054621037177060000011204034560000000000110541348510854233970000112040345600000000000000000000106928202300001120403456000000000011046702020000000000000011204034560000000000111708924810250806990000112040345600000000001117070216104659651200001120403456000000000011170566371052860576000011204034560000000000111709422900000000000000112040345600000000001117066206104856234200001120403456000000000011169401011067006232000011204034560000000000111694116310684881090000)
 (.leaf 11204034560000000000111687541710739227010000112040345600000000001116947218106913312100001120403456000000000011168530961075396253000011204034560000000000000000000010851476310476112040345610250425321064172100109528108604771120403456000000000010589090871091630637000011204034560000000000105772964910980516230000112040345600000000001082418581109061274300001120403456103776409110762676341092192853047811204034561071300848109111756710954183580479112040345611034397731085628062109725260904801120403456111086295710920759661091571668048111204034561109662991110189362510940623310000112040345611146419181096778305108800786600001111228416000000000000000000001065566026000011204034560000000000000000000010920687160482))))
 (.node 4 (.node 2 (.node 1 (.leaf 11204034560000000000000000000010914726990483112040345600000000000000000000109019546904841120403456000000000000000000001091701914000011067719680000000000102511474110525122100000112040345600000000000000000000107788247700001120403456000000000000000000001074145331000010968104960000000000000000000000000000000000109943193600000000001037194337106820198000001077936128000000000010360132211025097757000011067719680000000000102503421110668870200000110755840000000000000000000000107414541200001120403456000000000010487672601074053843048511204034560000000000000000000010761263730486112040345600000000001034644200108795193500001116340224000000000000000000001066562351000011204034560000000000000000000010971685400487)
 (.leaf 11204034560000000000000000000010844697020000109366476800000000000000000000103008895600001008981770000000000000000000000000000000000010089817700000000000000000000000000000000000109051904000000000000000000000000000000000001090519040000000000000000000001015170036000011135877120000000000000000000010568273250000112040345600000000000000000000106056691500001120403456000000000000000000001047859731000011204034560000000000000000000000000000000000112001024000000000000000000000102611632000001118568448000000000000000000000000000000048811181752321066079141000000000010434706210489112040345600000000000000000000000000000000001120403456000000000010635614091067625780000011204034560000000000000000000000000000000000))
 (.node 1 (.leaf 11204034560000000000110238168510546656760000112040345600000000000000000000105839965300001120403456000000000000000000001063278271000011204034560000000000000000000010584891130490112040345600000000000000000000000000000000001120403456000000000010826299740000000000000011204034560000000000000000000010456898310000112040345600000000000000000000000000000000001120403456000000000000000000000000000000000011204034560000000000000000000000000000000000112040345600000000000000000000000000000000001120403456000000000000000000000000000000000011204034560000000000000000000000000000000000112040345600000000000000000000103548242700001120403456000000000000000000001023546812000011204034560000000000000000000000000000000000)
 (.leaf 11204034560000000000000000000000000000000000112040345600000000000000000000000000000000001120403456000000000010694871221055248781000011204034561033369131111041650410335796340000112040345610860133681109200889000000000000001120403456108976473411083503890000000000000011204034561106159598106390198710928439560000112040345611157419001064950563108727594700001120403456106723341300000000001036881269000011204034561078707838110287546010406771820000112040345610136869071111659040106255854600001120403456103204842911096738501058572196000011204034561068214285111602732910456807540000112040345610873153631113161938105136595000001120403456111610197610362279691051716591000011204034561044530745110634488310587470380000)))
 (.node 2 (.node 1 (.leaf 11204034561093115146111332197710662900650000112040345611062591501112709372105520878900001120403456109793855611144236111057798814000011204034561084722680110906591210582087220000112040345610645130131103559026106290203500001120403456000000000011052945771035762666000011204034561023811219109924759610288173250000112040345600000000001098905131105075822900001120403456000000000011095319771065925976000011204034560000000000000000000000000000000000112040345610340869280000000000104477910600001120403456000000000000000000000000000000000011204034560000000000000000000000000000000000112040345600000000000000000000000000000000001120403456000000000000000000001063528213000011204034560000000000000000000000000000000000)
 (.leaf 11204034560000000000000000000000000000000491112040345600000000000000000000000000000000001120403456000000000000000000000000000000000011204034560000000000000000000000000000000000112040345600000000000000000000000000000000001120403456000000000000000000000000000000000011204034560000000000000000000000000000000000112040345600000000000000000000000000000000001120403456000000000000000000000000000000000011204034560000000000000000000000000000000000112040345600000000000000000000000000000000001120403456103106917600000000001032130873000011204034560000000000108210442700000000000000112040345600000000001041898668000000000000001120403456000000000000000000000000000000000011204034560000000000104037529700000000000000))
 (.node 1 (.leaf 11204034560000000000000000000000000000000000112040345610473560281025061054000000000000001120403456000000000000000000000000000000000011204034561045961841000000000000000000000000112040345600000000000000000000000000000000001120403456000000000000000000000000000000000011204034560000000000000000000000000000000000112040345600000000000000000000000000000000001120403456000000000000000000000000000000000011204034561066060174000000000000000000000000112040345600000000000000000000000000000000001120403456104053380800000000000000000000000011204034560000000000000000000000000000000000112040345600000000001025087898000000000000001120403456000000000000000000000000000000000011075584000000000000106284670010770953450000)
 (.leaf 11020533760000000000102500736700000000000000110834483200000000001059251343000000000000001112801280000000000010502268780000000000000010994319360000000000104937459500000000000000110834483200000000001065158600102503301200001111228416000000000010753809581023456006000011020533760000000000106851320500000000000000110834483200000000001067653372000000000000001099431936000000000010816942240000000000000010968104960000000000108583190500000000000000111201484810913012441091720498000000000000001118961664105116173811081137781026408613000011204034560000000000110280337000000000000000111791308800000000001099846910000000000000001116733440000000000011010562851051312991000011167334400000000000109567876810430337630000)))))
 (.node 8 (.node 4 (.node 2 (.node 1 (.leaf 11156848640000000000108537661410578578530000110048051200000000001078191142000000000000001090519040000000000000000000000000000000000011204034560000000000102989289210501296450000112040345600000000000000000000102200012200001109131264000000000010626353071037430139000011020533760000000000000000000000000000000000109366476800000000001050273854000000000000001111228416000000000010997618701077661671000011141120000000000000110120077910548233740000110834483200000000000000000000000000000000001107558400000000000010768619671039504489000011163402240000000000110969542410773333260000111358771210766125991105798418105183113600001120403456000000000010884602661067625291049211204034560000000000000000000010436559330000)
 (.leaf 11181752320000000000000000000000000000000000109943193600000000000000000000103723235600001077936128000000000010631621121048442341000011148984320000000000108872052210534515290000112001024000000000001074664990105128890200001117519872000000000000000000001038891705000011156848640000000000106520893210421246630000111935488000000000001058424226000000000000001118568448000000000010831425181049003061000011204034560000000000000000000010391383070000112040345600000000000000000000106031289700001120403456000000000000000000001068397871000011204034560000000000000000000010774526690000112040345600000000000000000000106511889700001120403456000000000000000000001078437415000011204034561067076723000000000010491421550000))
 (.node 1 (.leaf 11204034560000000000000000000000000000000000112040345600000000000000000000106536718600001120403456000000000000000000000000000000000011204034560000000000000000000000000000000000112040345600000000001116897581103298964100001120403456000000000011063588810000000000000011204034560000000000111489790800000000000000112040345600000000001113060986104867128800001120403456000000000011143947751059952304000011204034560000000000111422967610851731330000112040345610497832551115015637106546281300001120403456106450511111169951381043632814000011204034560000000000110883082110749974130493112040345600000000001115750361108762508704941120403456000000000000000000001087210943000011204034560000000000000000000010807642030000)
 (.leaf 11204034560000000000000000000010909069690000112040345610255208841035060275109092326204951120403456000000000010422207911095982844049611120148481107247995109487325210809770070000110913126410957471651097365612107535729500001108344832000000000000000000000000000000000011200102400000000000000000000010928096650000112040345600000000000000000000109911135804971120403456000000000000000000001099058197000011204034560000000000000000000010859806320498110048051200000000000000000000103179281100001120403456000000000000000000001045875588000011189616640000000000000000000010589856930000109051904000000000000000000000000000000000001077936128000000000010662004651033482401000010936647680000000000108411601610366531430000)))
 (.node 2 (.node 1 (.leaf 10968104960000000000105579355810502858620000111122841600000000001067688604105836421700001086324736000000000000000000001026532725000011204034560000000000104054978010784293510499112040345600000000000000000000107332352405001120403456000000000000000000001074935462050111204034560000000000104867666310766292430502111122841600000000000000000000107247418305031037773620000000000000000000000000000000000011135877120000000000103005395410591790670000112040345600000000000000000000108171234905041120403456000000000000000000001089575241050511204034560000000000000000000010914930640506112040345600000000000000000000108693435100001093664768000000000000000000001046896530000010813946250000000000000000000000000000000000)
 (.leaf 10968104960000000000000000000000000000000000111634022400000000000000000000104141614900001099431936000000000000000000000000000000000011204034560000000000000000000010367315540000112040345600000000000000000000102082893000001120403456000000000000000000001051737652000011204034560000000000000000000010687108170507112040345610664601771101328967106157256600001120403456000000000000000000001072811634000011204034560000000000107645553910773970360000112040345600000000001101918739106728115300001120403456000000000010425429131071621298000011204034560000000000102155797100000000000508112040345600000000000000000000104980983200001120403456000000000000000000000000000000000011204034560000000000000000000010526719080000))
 (.node 1 (.leaf 11204034560000000000000000000000000000000000112040345600000000000000000000000000000000001120403456000000000000000000001077698716000011204034560000000000000000000000000000000000112040345600000000000000000000000000000000001120403456000000000000000000000000000000000011204034560000000000000000000000000000000000112040345600000000000000000000000000000000001120403456105320020300000000000000000000000011204034560000000000000000000010623889480000112040345600000000000000000000104038860200001120403456000000000000000000001051138146000011204034560000000000000000000010597128800000112040345600000000000000000000000000000000001120403456000000000000000000000000000000000011204034560000000000000000000010341254980000)
 (.leaf 11204034560000000000000000000000000000000000112040345600000000000000000000000000000000001120403456000000000000000000001026662522000011204034560000000000000000000000000000000000112040345600000000000000000000000000000000001120403456107083770511104869681043304807000011204034561084104372111202315810433500970000112040345611187911131064826411108244520700001120403456106289508511164100591071531671000011204034561089937632106058680900000000000000112040345611106959890000000000000000000000001120403456111323642200000000000000000000000011204034560000000000110960495810447922470000112040345610796877701112977493104298205400001120403456108360208311044593341031815284000011204034561084455526111517677610530170690000))))
 (.node 4 (.node 2 (.node 1 (.leaf 11204034561084946131111143967810679762970000112040345610916257311114906978105426904300001120403456000000000000000000001060499017000011204034560000000000000000000010595654890000112040345600000000000000000000000000000000001120403456000000000000000000000000000000000011204034560000000000000000000000000000000000112040345600000000000000000000000000000000001120403456000000000000000000000000000000000011204034561071317852000000000000000000000509112040345600000000000000000000103266896300001120403456000000000000000000001048636852000011204034560000000000000000000000000000000000112040345600000000000000000000000000000000001120403456000000000000000000000000000000000011204034560000000000000000000000000000000000)
 (.leaf 11204034560000000000108564232300000000000000112040345600000000001040623600000000000000001120403456000000000010334899270000000000000011204034560000000000000000000000000000000000112040345600000000000000000000000000000000001120403456000000000000000000000000000000000011204034560000000000103018817100000000000000112040345600000000000000000000000000000000001120403456106307381300000000000000000000000011204034560000000000000000000000000000000000112040345600000000000000000000000000000000001120403456000000000000000000000000000000000011204034560000000000000000000000000000000000112040345600000000001038509670000000000000001120403456000000000010659806840000000000000010968104960000000000107599206800000000000000))
 (.node 1 (.leaf 11075584000000000000109452103500000000000000109681049600000000001074540000000000000000001099431936000000000010871338170000000000000011204034560000000000000000000000000000000000112040345600000000001071196720000000000000001108344832000000000010498879781078305410000011099176960000000000105231731900000000000000111044198400000000001038496249000000000000001093664768000000000010405363580000000000000010780980280000000000000000000010553712200000109366476800000000001088726604105803717500001077936128000000000010750760321055617787000011204034560000000000109319636910678642340510112040345600000000001052089149098063799300001120403456000000000010694686671060078352000011148984320000000000000000000010370732960000)
 (.leaf 11004805120000000000000000000010401200800000111568486400000000001083508890106067899000001109917696000000000010672607851060317900000010863247360000000000000000000000000000000000109051904000000000001042824770102097275200001108344832000000000010687254361055632697000011120148480000000000109923936510285896250000111280128000000000001100594702000000000000001112801280000000000010957494420000000000000011135877120000000000109622476110418320870000112040345600000000000000000000107035717400001120403456000000000000000000001068193965000011204034560000000000000000000010326304850000112040345600000000000000000000105769319400001120403456000000000000000000001055944687000011204034560000000000000000000010541034830000)))
 (.node 2 (.node 1 (.leaf 11204034560000000000000000000010633646260000112040345600000000000000000000104894935700001120403456000000000000000000001025542662000011204034560000000000000000000010628148600000112040345600000000001079230071102216598600001120403456105534067411152592471067571048000011204034560000000000111682635710531661260000112040345600000000001116172622105512715800001120403456000000000011080543500000000000000011204034560000000000111041495710853402170000112040345600000000001106223563107639075900001120403456000000000010847975901086632695000011204034560000000000000000000010862713870000112040345600000000000000000000108867990600001120403456000000000010878913091074050118051111204034560000000000103483210510921992630512)
 (.leaf 11204034560000000000103520791410932845840513112040345610335872351049512169108299652505141120403456000000000010606102971092922562051511204034560000000000106074451510903439660516112040345600000000001054481580109108040305171120403456000000000010572531761092589905000011204034560000000000110098603010866871610000112040345600000000001107688319107963752400001120403456000000000011073610581088268864000011204034560000000000110713959910917119540000112040345611160661841098757597109619314600001077936128000000000000000000001009904585000011091312640000000000000000000010773505170000112040345600000000000000000000109621726400001120403456000000000000000000001093923274000011204034560000000000000000000010936354820518))
 (.node 1 (.leaf 11204034560000000000000000000010975477870519112040345610671695431053481658109182219300001120403456000000000010513744401094467938000011204034560000000000000000000010951731240000112040345600000000001068770735108739524305201120403456107003079600000000001092423496000011204034560000000000000000000010883677560000112040345600000000000000000000108605749400001120403456000000000000000000001075132882000010863247360000000000000000000010378987170000109366476800000000000000000000103685851300001114112000000000000010695928181076840402000011075584000000000000106751328310508912410000111358771210608001821089099478107760788900001120403456109777813111020633901074786280052111204034561025386666109457241510759764440522)
 (.leaf 11189616641035278244108218558710583899330000110991769600000000001062474246105082807900001077936128000000000000000000000000000000000011083448320000000000000000000010732022980000109681049600000000000000000000107091355400001096810496000000000000000000000000000000000011204034560000000000000000000010577280330523112040345600000000000000000000104208274505241120403456000000000000000000001060986330000011204034560000000000000000000010596173630525107382675900000000000000000000000000000000001090519040000000000000000000001037887834000011160780800000000000000000000010674160600000111044198400000000000000000000104304765000001086324736000000000000000000000000000000000011004805120000000000000000000010573183230000))))))
 (.node 16 (.node 8 (.node 4 (.node 2 (.node 1 (.leaf 11204034560000000000000000000000000000000000112040345600000000000000000000105790303205261120403456107580832810253563331048198507052711204034560000000000000000000010572793600000112040345600000000000000000000106943109100001120403456000000000000000000001057420887000011204034560000000000000000000010523922850000112040345600000000000000000000108111151100001120403456000000000000000000001062949474000011204034560000000000000000000010830707890000112040345600000000000000000000102526070400001120403456000000000000000000000000000000000011204034560000000000000000000000000000000000112040345600000000000000000000000000000000001120403456000000000000000000000000000000000011204034560000000000000000000010829742640000)
 (.leaf 11204034560000000000000000000010254609280000112040345600000000000000000000000000000000001120403456000000000000000000000000000000000011204034560000000000000000000000000000000000112040345600000000000000000000000000000000001120403456097924126900000000000000000000000011204034560000000000000000000000000000000000112040345600000000000000000000000000000000001120403456000000000000000000000000000000000011204034560000000000000000000000000000000000112040345600000000000000000000000000000000001120403456000000000000000000001062635148000011204034561035850012110070952110616506670000112040345610848932621099037671108235809300001120403456111856638610676969931071023086000011204034561114670946106222426510839507450000))
 (.node 1 (.leaf 11204034561105606360111472950610551836420000112040345610905854791112639144105598600100001120403456110807129211079483921044058439000011204034561109779522110744006810305824840000112040345611072730101112338858104285361800001120403456000000000000000000001025841193000011204034561092032091000000000000000000000000112040345611074383740000000000000000000000001120403456111645297000000000000000000000000011204034561105440674110873167810262174160000112040345610941612621108058387107067291700001120403456110104730111161905001059155925000011204034561085516963111444023110480714220000112040345610167476081024980523105053602700001120403456000000000010776085531033300829000011204034560000000000109253534700000000000000)
 (.leaf 11204034560000000000108687062500000000000000112040345600000000001106238557104905641900001120403456105912633611093027591043690625000011204034560000000000108877253210266369850000112040345600000000000000000000000000000000001120403456106919858700000000000000000000000011204034561062352795000000000000000000000000112040345600000000000000000000000000000005281120403456000000000000000000000000000000000011204034560000000000000000000000000000000000112040345600000000000000000000000000000000001120403456000000000000000000000000000000000011204034560000000000000000000000000000000000112040345600000000000000000000000000000000001120403456000000000000000000000000000000000011204034560000000000000000000000000000000000)))
 (.node 2 (.node 1 (.leaf 11204034560000000000105515266900000000000000112040345600000000001045656764000000000000001120403456000000000010302150150000000000000011204034560000000000105494798710206770650000112040345600000000001070022315104564736700001120403456000000000010901709130000000000000011204034560000000000000000000000000000000000112040345600000000001015061833000000000000001120403456000000000010163503240000000000000011204034560000000000000000000000000000000000112040345600000000000000000000100078390000001120403456000000000000000000000000000000000011204034560000000000000000000000000000000000112040345600000000000000000000000000000000001120403456000000000000000000000000000000000011204034561050153595000000000000000000000000)
 (.leaf 11204034561057665476000000000000000000000000112040345600000000000000000000000000000000001120403456000000000000000000000000000000000011204034560000000000000000000000000000000000112040345600000000000000000000000000000000001120403456000000000000000000000000000000000011204034560000000000000000000000000000000000112040345600000000000000000000000000000000001120403456000000000010412208690000000000000011135877120000000000000000000000000000000000111280128000000000000000000000000000000000001120403456000000000000000000000000000000000011204034560000000000105875977010145104870000110519910400000000001076572560106937498700001120403456000000000010991467231070923895052911204034560000000000105505200510503010810530))
 (.node 1 (.leaf 11175198720000000000109021726010406488300531111044198400000000000000000000000000000000001096810496000000000010729323230000000000000011112284160000000000107360844510605345050000111673344000000000001065686244105612230105321116733440000000000010760935701047275779000011051991040000000000000000000000000000000000111201484800000000001076027720106234533900001118568448000000000010902376021045498942000011185684480000000000108797142010350014640000111280128000000000001088100185105708263400001118175232000000000011024863331075947387000011204034560000000000000000000000000000000000112040345610525399860000000000106436897900001120403456000000000000000000001058583675000011204034560000000000000000000010784920190000)
 (.leaf 11204034560000000000000000000010504137580000112040345600000000000000000000106741075400001120403456000000000000000000001063482763000011204034560000000000000000000010683863430000112040345600000000000000000000103166944300001120403456106045750700000000001032050340000011204034560000000000111707371610459857060000112040345600000000001114359228105739935100001120403456000000000011085585321033548291000011204034560000000000111378311400000000000000112040345600000000001108047928103269514200001120403456000000000011084174981039505295000011204034560000000000110885024610665460560000112040345600000000001117079156104043049900001120403456000000000011168052941076308859000011204034560000000000111678121610776697340000))))
 (.node 4 (.node 2 (.node 1 (.leaf 11204034561060373017111693516010614078880000112040345600000000001107653663108075439700001120403456000000000010958979201096343716000011204034560000000000000000000010890728870000112040345600000000000000000000108473278500001120403456000000000000000000001087275745000011204034560000000000102514158510967781590533112040345600000000001064287863108956144700001120403456000000000000000000001094653772000011204034560000000000104711973810990249460000112040345600000000000000000000108788067405341120403456000000000000000000001086710859053511204034560000000000103718091510952296490536112040345600000000001101776709109442860700001120403456000000000011054676441086611293053711204034560000000000110643579510939123530000)
 (.leaf 11204034561049310305110637639310928551580538112040345610330063411111153076109657057300001120403456107442944211167903911069547742000011204034561119040821108855547710736994850000109051904000000000000000000000103745084500001120403456000000000000000000001097158892000011204034560000000000000000000010993171190000112040345600000000000000000000109329817705391120403456000000000000000000001087397559000011204034560000000000000000000010888378000000112040345600000000001010377635108467629700001120403456000000000000000000001086040494000011204034560000000000000000000010661737350000112040345600000000000000000000108222496300001120403456000000000000000000001070123033000011036262400000000000000000000000000000000000))
 (.node 1 (.leaf 11036262400000000000107508735710713854650000110677196800000000001080630129104273901600001096810496000000000010851490730000000000000011112284161051611099108514068410710425050000111961702410955646341085370322107711195805401120403456108294606710966930551061131146054111075584000000000000000000000000000000000000110755840000000000000000000000000000000000001090519040000000000010376640991042066441000010779361280000000000000000000000000000000000110362624000000000000000000000000000000000001077936128000000000000000000000000000000000011204034560000000000000000000010832049900000112040345600000000000000000000108326842500001120403456000000000000000000001076187215000011204034560000000000000000000010703864480542)
 (.leaf 11204034560000000000000000000010897323830000112040345600000000000000000000108792281605431120403456000000000000000000001088028119000011204034560000000000000000000010892532400000110519910400000000000000000000000000000000001113587712000000000000000000001064380476000010905190400000000000000000000010451699390000111044198400000000000000000000104208308400001086324736000000000000000000000000000000000011204034560000000000000000000010758788750000112040345600000000000000000000106149924200001120403456000000000000000000001058000667000011204034560000000000000000000010414288370000112040345600000000000000000000103664362600001120403456000000000010653163061031283077000011204034560897988541109930186010523835340000)))
 (.node 2 (.node 1 (.leaf 11204034560000000000000000000010688162750000112040345600000000000000000000108679158500001120403456110267130510522099451076582102000011204034560000000000000000000010710642740000112040345600000000000000000000107193371300001120403456000000000000000000000000000000000011204034560000000000000000000000000000000000112040345600000000000000000000102887366805441120403456105128518500000000001029530872054511204034561050733818000000000010211445130546112040345600000000000000000000000000000000001120403456000000000000000000001031222273000011204034560000000000000000000000000000000000112040345600000000000000000000000000000000001120403456103956341400000000000000000000000011204034560000000000000000000000000000000000)
 (.leaf 11204034560000000000000000000000000000000000112040345600000000000000000000000000000000001120403456000000000000000000000000000000000011204034560000000000000000000000000000000000112040345600000000000000000000000000000000001120403456000000000000000000000000000000000011204034560000000000000000000010573075850000112040345610711725360000000000103841467805471120403456000000000000000000000000000000000011204034560000000000000000000000000000000000112040345600000000000000000000000000000000001120403456000000000000000000000000000000000011204034560000000000000000000010298812900000112040345600000000000000000000107660858100001120403456000000000000000000001042498207000011204034560000000000109333729810561370990000))
 (.node 1 (.leaf 11204034560000000000109692573510663832540000112040345611015560441102285373108548370700001120403456111291249100000000000000000000000011204034561108652179000000000000000000000000112040345611032330700000000000000000000000001120403456110242009111086648050000000000000011204034561088776502110025249900000000000000112040345610793631271109094590106748319800001120403456106328804111079559410000000000000011204034560000000000110624442900000000000000112040345600000000000000000000000000000000001120403456000000000000000000000000000000000011204034560000000000000000000000000000000000112040345600000000000000000000104844374300001120403456000000000000000000001035611330000011204034560000000000000000000000000000000000)
 (.leaf 11204034560000000000000000000000000000000000112040345600000000000000000000105409755000001120403456000000000000000000000000000000000011204034560000000000000000000000000000000000112040345600000000000000000000000000000000001120403456000000000000000000001033475709054811204034560000000000000000000010184554160000112040345600000000000000000000101098541800001120403456000000000000000000000000000000000011204034560000000000000000000000000000000000112040345600000000001016726133000000000000001120403456104829085400000000000000000000000011204034560000000000106718528810450818020000112040345600000000001037261446000000000000001120403456105336904910683865370000000000000011204034561047507560108381129910561878500000)))))
 (.node 8 (.node 4 (.node 2 (.node 1 (.leaf 11204034560000000000108836862010526409370000112040345600000000000000000000000000000000001120403456000000000010251415850000000000000011204034560000000000106740171410701570440000112040345600000000001028899681000000000000001120403456000000000000000000000000000000000011204034560000000000000000000000000000000000112040345600000000000000000000000000000000001120403456000000000000000000000000000000000011204034560000000000000000000000000000000000112040345600000000000000000000000000000000001120403456000000000000000000000000000000000011204034560000000000000000000000000000000000112040345600000000000000000000000000000000001120403456000000000000000000000000000000000011204034560000000000000000000000000000000000)
 (.leaf 11204034560000000000000000000000000000000000112040345600000000000000000000000000000000001120403456000000000000000000000000000000000011204034560000000000000000000000000000000000112040345600000000000000000000000000000000001120403456000000000000000000000000000000000011193548800000000000000000000000000000000000111201484800000000001016726133000000000000001112801280107109692911108411241051017194000011189616640000000000109989210400000000000000112040345600000000000000000000000000000000001120403456000000000010250342111035294520000011204034560000000000104899543010537430500000111751987200000000001072059069101675190400001106771968000000000010455158360000000000000010779361280000000000000000000010478239150000))
 (.node 1 (.leaf 10905190400000000000104726066600000000000000111358771210277164181101513202107331300800001120403456105991214711056866391083876055000011204034560000000000110068875910860495500549112040345600000000001092390748104986847705501105199104000000000000000000000000000000000010968104960000000000108450839310248524140000112001024000000000001092809235108786907805511119354880000000000010771522131052705951000011185684480000000000105299847410348701340000110677196800000000000000000000102548778900001090519040000000000000000000001025466194000011120148480000000000108497459010421244800000111856844800000000001065250875104613344605521110441984000000000010889910551056963521000011160780800000000000108628069610402279140000)
 (.leaf 10994319360000000000109212818500000000000000112040345600000000000000000000000000000000001120403456000000000000000000001025404221000011204034560000000000000000000010531613080000112040345600000000000000000000105338694400001120403456000000000000000000001048469044000011204034560000000000000000000010452257190000112040345600000000000000000000105691105100001120403456000000000000000000001070756699000011204034560000000000000000000010627973250000112040345600000000000000000000104312087600001120403456000000000000000000001031909368000011204034560000000000000000000010589304690000112040345600000000000000000000000000000000001120403456000000000011127450241043245953000011204034560000000000111588567910509509630000)))
 (.node 2 (.node 1 (.leaf 11204034560000000000110805629009838630110000112040345600000000001108056290000000000000001120403456000000000011079437521066251599000011204034560000000000110879296710665015800000112040345600000000001117080519104260471200001120403456000000000011170185481060662068000011204034560000000000111703712110579094840000112040345600000000001116597178108367545800001120403456104539940211162206861054596413055311204034560000000000110812696410625152720000112040345600000000001107366039107750759700001120403456000000000000000000001091433896000011204034560000000000104734790810894847280554112040345600000000001057239754109314536705551120403456000000000000000000001090853942000011204034561026649118107992632510880044510556)
 (.leaf 11204034560000000000109920124910944562430557112040345600000000001103851998109295548905581120403456000000000011067678261091750474055911204034560000000000111655695210854795440000112040345611156902331103607156108146275300001096810496108664931910899614070000000000000011104419841109732503107607208110419241360000112040345600000000000000000000109452084105601120403456000000000000000000001091146617056111204034560000000000000000000010967383700000112040345600000000000000000000109553980700001120403456109615774810759283151074738910000011204034561058897243105871279410990442230562112040345600000000000000000000108837144805631120403456000000000000000000001090247485000011204034561055004056000000000010955732430000))
 (.node 1 (.leaf 11204034560000000000000000000010965393480000112040345600000000000000000000108401530800001120403456000000000000000000001086018568000010905190400000000000000000000000000000000000110048051200000000001066720559106583360800001099431936000000000010914400040000000000000011135877120000000000110351939010445535670000111673344000000000001104260995104919473800001120403456109768076911010592741054520911056411204034561082086685109238487610832083800000112040345610780768971068252319105473028500001120403456105629150610779428390000000000000010936647680000000000103198668900000000000000110205337600000000000000000000106302288005651106771968000000000000000000001059736303056611175198720000000000000000000010416605250567)
 (.leaf 11200102400000000000000000000010673397440000109681049600000000000000000000000000000000001077936128000000000000000000000000000000000010863247360000000000000000000000000000000000112040345600000000000000000000107974778505681120403456000000000000000000001091736960000011204034560000000000000000000010886883800000110048051200000000000000000000105474056600001086324736000000000000000000000000000000000011141120000000000000000000000010325697290000110991769600000000000000000000000000000000001090519040000000000000000000000000000000000011204034560000000000000000000010769458160000111961702400000000000000000000104637921900001107558400000000000000000000001077118323000011204034560000000000000000000010604149390000))))
 (.node 4 (.node 2 (.node 1 (.leaf 11204034560000000000000000000010619992720000112040345600000000000000000000106806099400001120403456000000000000000000001043009025000011204034561105273984104367034210776910320000112040345600000000001083930208103292013400001120403456000000000010661576841058922479000011204034560000000000000000000010830272330569112040345600000000000000000000108740026405701120403456000000000000000000000000000000000011204034560000000000000000000000000000000000112040345600000000000000000000103970786400001120403456000000000000000000001036016443000011204034560000000000000000000000000000000000112040345600000000000000000000102783838300001120403456000000000000000000001059192876000011204034561082086509099349304410403296220571)
 (.leaf 11204034560000000000000000000000000000000000112040345600000000000000000000000000000000001120403456000000000000000000000000000000000011204034560000000000000000000000000000000000112040345600000000000000000000000000000000001120403456000000000000000000000000000000000011204034560000000000000000000000000000000000112040345600000000000000000000000000000000001120403456000000000000000000000000000000000011204034560000000000000000000000000000000000112040345600000000000000000000106267178100001120403456000000000000000000000000000000000011204034560000000000000000000010501203310000112040345600000000000000000000105211270300001120403456000000000000000000001086132292000011204034560000000000103008079710761967900000))
 (.node 1 (.leaf 11204034560000000000000000000010689994910000112040345600000000000000000000000000000000001120403456000000000000000000001037839633000011204034560000000000000000000010472239060000112040345600000000001110436086106867509500001120403456104561207011117436341065338245000011204034561102490041111113747810496598050000112040345611084572431092025949107132519305721120403456109508808211115213361059477481000011204034561101209852109982499510717177550000112040345611098032711101205078107899900700001120403456111051473110177461881034086092000011204034561114064757103355703610400075090000112040345611143977591019410488102813362200001120403456111346091500000000000000000000000011204034561116250182000000000010387896700000)
 (.leaf 11204034561112235204105011614800000000000000112040345611162245751026161639104776830800001120403456105926345611053319590000000000000011204034561080366551000000000010393621720000112040345610458423201102556325103390182500001120403456000000000010469720980000000000000011204034560000000000000000000000000000000000112040345600000000000000000000104079618000001120403456000000000000000000001029630851000011204034560000000000000000000000000000000000112040345600000000000000000000000000000000001120403456000000000000000000000000000000000011204034560000000000000000000010388668980000112040345600000000000000000000104765083800001120403456000000000000000000000000000000000011204034560000000000000000000000000000000573)))
 (.node 2 (.node 1 (.leaf 11204034560000000000000000000000000000000574112040345600000000000000000000000000000000001120403456000000000000000000000000000000000011204034560000000000109000251110335601750000112040345610901511851094493877000000000000001120403456000000000010823913180000000000000011204034560000000000105314275800000000000000112040345610497388621080294585000000000000001120403456000000000010963759661045240571000011204034560000000000109447101810281614380000112040345600000000001068979611103335078200001120403456000000000010590785371059160810000011204034560000000000000000000000000000000000112040345600000000001033503349000000000000001120403456000000000000000000000000000000000011204034560000000000000000000010353558190000)
 (.leaf 11204034560000000000000000000010256566330000112040345600000000000000000000000000000000001120403456000000000000000000000000000000000011204034561064609247000000000010357157340000112040345610312707710000000000000000000000001120403456000000000000000000000000000000000011204034560000000000000000000000000000000000112040345600000000000000000000000000000000001120403456000000000000000000000000000000000011200102400000000000000000000000000000000000111201484800000000000000000000000000000000001120403456000000000010919238170000000000000011204034560000000000106972284200000000000000112040345610654778621109531217000000000000001120403456000000000010168335071040990304000011204034560000000000000000000010579415780000))
 (.node 1 (.leaf 11204034560000000000104398575400000000000000109366476800000000001088665996106161534300001110441984000000000011044386771081358705000011204034561056761704109914525510475232390000111751987200000000001060536477106611853900001109131264000000000000000000000000000000000010905190400000000000000000000010369006380000109943193600000000001084220454107081113800001106771968000000000010649975390000000000000011099176960000000000000000000010481720960575111607808000000000000000000000107250069200001111228416000000000010942826941037529966000011167334400000000000111119066710242190830000111896166400000000001109145315105709077200001117126656000000000010979934991027994948000011204034560000000000000000000010527041750000)
 (.leaf 11204034560000000000000000000010574301070000112040345600000000000000000000102941601900001120403456000000000000000000001078514080000011204034560000000000000000000010733167920000112040345600000000000000000000105622532700001120403456000000000000000000000000000000057611204034560000000000000000000010397402240000112040345600000000000000000000000000000000001120403456000000000011066024131033498215000011204034560000000000110460340810455477060000112040345600000000001109724653107572089900001120403456000000000011135963631066677778000011204034560000000000111613486010916388720000112040345600000000001116694249108071170900001120403456000000000000000000001066624722057711204034560000000000000000000010947108490578)))))))
 (.node 32 (.node 16 (.node 8 (.node 4 (.node 2 (.node 1 (.leaf 11204034560000000000000000000010945609680579112040345600000000000000000000108287395700001120403456000000000010623802931099206457058011204034560000000000000000000010962494960581112040345600000000000000000000108858355600001120403456100898606510203231681083453976058211204034560000000000000000000010938469220583112040345600000000001060918998109108644105841120403456000000000011066141571088894845058511204034561026645897110642682910833948520586112040345600000000001107289860109262340800001120403456000000000011161262751089441357058711204034560000000000111633756310893006130000112040345611163263331102426092107466632700001118961664111798996910882237071053504781000010936647681088530445108039231210035966970000)
 (.leaf 10905190400000000000000000000010501215830000107793612800000000000000000000104440247600001095552205000000000000000000000000000000000011204034560000000000101688719410888952900588112040345600000000000000000000108430152900001120403456000000000000000000001091669472000011204034560000000000000000000010891202420000112040345600000000000000000000108552799600001120403456000000000000000000001088919517058911204034560000000000110439620910928294020000112040345609792412691071501227108888560800001120403456000000000000000000001090011092000011204034560000000000104342875010854644610000109681049600000000000000000000104254979700001077936128000000000010363621870000000000000010723246530000000000000000000000000000000000))
 (.node 1 (.leaf 10779361280000000000105863561910222181670000110519910400000000001099222588105159567600001118568448109661311310926427211078332256000011204034561107320264109067360010723949450590112040345610763186071095595406107842996905911120403456103531824110974361811049925238059211200102400000000000106632965010397590080000111122841600000000000000000000106580043605931120403456000000000000000000001068088277059410783145380000000000000000000000000000000000112040345600000000000000000000109064466300001120403456000000000000000000001085632463000011204034560000000000000000000010737855330000111791308800000000000000000000106530787900001110441984000000000000000000001032257234000010863247360000000000000000000000000000000000)
 (.leaf 11204034560000000000000000000010537993650000112040345600000000000000000000105979547800001120403456000000000000000000001034038912000011204034560000000000000000000010569812750000112040345600000000000000000000107142760800001120403456000000000000000000001064031687000011204034560000000000000000000010752692640000112040345600000000000000000000107837136000001120403456000000000000000000001068156895000011204034560000000000000000000000000000000000112040345600000000000000000000108111991100001120403456000000000000000000001072678479000011204034560000000000000000000000000000000000112040345600000000000000000000000000000000001120403456101208488400000000001046221427000011204034560000000000000000000010775313850000)))
 (.node 2 (.node 1 (.leaf 11204034560000000000000000000010522922790000112040345600000000000000000000104166194400001120403456000000000000000000001042964197000011204034560000000000000000000000000000000000112040345600000000000000000000000000000000001120403456000000000000000000001023177187000011204034560000000000000000000000000000000000112040345600000000000000000000000000000000001120403456000000000000000000000000000000000011204034560000000000000000000000000000000000112040345610588886690000000000000000000000001120403456000000000000000000000000000000000011204034560000000000000000000000000000000000112040345600000000000000000000000000000000001120403456000000000000000000000000000000000011204034560000000000000000000000000000000000)
 (.leaf 11204034560000000000000000000000000000000000112040345600000000000000000000105874438900001120403456000000000000000000001067229896000011204034560000000000000000000010636662190000112040345600000000001100498652105592047100001120403456000000000010654975001043875071000011204034560000000000109709256310526979280000112040345600000000000000000000103532299200001120403456000000000011021013481057030998000011204034560000000000108854645910276968480000112040345610804797721101719090104898096800001120403456000000000011080897921037523441000011204034560000000000000000000000000000000000112040345611177889281034214703105650707300001120403456111942142610234504411034436128000011204034561114309303000000000000000000000000))
 (.node 1 (.leaf 11204034561113014205000000000000000000000000112040345611123797061087786870000000000000001120403456102663220711063280530000000000000011204034560000000000000000000000000000000000112040345600000000000000000000000000000000001120403456000000000000000000000000000000000011204034560000000000000000000000000000000000112040345600000000000000000000000000000000001120403456000000000000000000001050783224000011204034560000000000000000000000000000000000112040345600000000000000000000000000000000001120403456000000000000000000000000000000000011204034560000000000000000000000000000000000112040345600000000000000000000105615923300001120403456000000000000000000000000000000000011204034560000000000000000000000000000000000)
 (.leaf 11204034560000000000000000000000000000000000112040345600000000000000000000000000000000001120403456000000000000000000000000000000000011204034560000000000107512552500000000000000112040345600000000001086868737000000000000001120403456104292738010833199371047149927000011204034560000000000108642351210268705060000112040345600000000001093559596000000000000001120403456105242439110840111581041697082000011204034560000000000109151277510320849050000112040345610603508041073218375000000000000001120403456000000000010968754030000000000000011204034560000000000109292510210706594830000112040345600000000001068112229105054714300001120403456000000000010891590371064364005000011204034560000000000103852309210453039160000))))
 (.node 4 (.node 2 (.node 1 (.leaf 11204034560000000000101677982010403019080000112040345600000000001025114741103228333100001120403456000000000000000000000000000000000011204034560000000000000000000000000000000000112040345600000000001068143267104050576600001120403456000000000010320269540000000000000011204034560000000000000000000000000000000000112040345600000000000000000000000000000000001120403456000000000000000000000000000000000011204034560000000000000000000000000000000000112040345600000000000000000000000000000000001120403456000000000000000000001052005508000011204034560000000000000000000010163129730000112040345600000000000000000000102004169200001120403456000000000000000000001060160124000011204034560000000000000000000000000000000000)
 (.leaf 11204034560000000000104309320600000000000000112040345600000000001067638273000000000000001120403456000000000010531159150000000000000011204034560000000000105428025300000000000000109943193600000000001036644044103796718405951120403456000000000010838112991067017327000011204034560000000000107024041910655354740000108632473600000000001080203569000000000000001051713239000000000000000000000000000000000011051991040000000000000000000010571900700000110677196800000000001095061262103151664000001109917696000000000010995837170000000000000011141120000000000000110397368610610712350000110834483200000000001097701890103146741300001117126656000000000010990829701053214995000011189616640000000000107600045710669461180000))
 (.node 1 (.leaf 11204034560000000000000000000010516206180000112040345600000000000000000000107216249900001120403456000000000000000000001045400104000011204034560000000000000000000010553897850000112040345600000000001107985642105798163400001120403456000000000011083561831050180142000011204034560000000000111079933910761061200000112040345600000000001116870148107434421500001120403456000000000011142996691050009538000011204034560000000000110873870310794115290000112040345600000000001114017209109120089505961120403456000000000011084877271073512968059711204034560000000000000000000010852240950598112040345600000000001083796829109140649705991120403456000000000000000000001085803116000011204034560000000000000000000010920782110000)
 (.leaf 11204034560000000000000000000010976923380000112040345600000000000000000000109657284506001120403456000000000009926340511094641431060111204034560000000000105833866210920438550602112040345600000000001105781745107300362706031120403456000000000011068768781091949570000011204034560000000000111679805810759641950000112040345610553397011117132790104302939500001120403456106954167311168636861075832423000011204034561068310964111685615010785772210000112040345611042973231112838085107953081800001120403456111645610611019095641074350962000011083448320000000000000000000010759287630000111358771200000000000000000000107698642206041103626240000000000000000000001066718542000011204034561028411665105506878310834888690605)))
 (.node 2 (.node 1 (.leaf 11204034560000000000108329288310920152000606112040345600000000001082566010109181797406071120403456000000000010646787721096038194000011204034560000000000000000000010905408910608112040345600000000000000000000109552457206091120403456000000000010580635161084511309000011204034560000000000105800311810907826000000112040345600000000000000000000109256860106101120403456000000000011042046871095920692061111204034560000000000109613080910967328350000112040345600000000000000000000109996180006121120403456000000000010334093971094202325061311020533760000000000000000000010602739660000107793612800000000000000000000000000000000001077936128000000000010167798201027303828000011036262400000000000108071695210238429270000)
 (.leaf 11204034561082694180109601515110610472380614112001024010848667851091866041108331521806151120403456106236915310790102891071575098061611204034560000000000000000000010583587370617112040345600000000000000000000105756099900001120403456000000000000000000001078271450000011175198720000000000000000000010664184230000111358771200000000000000000000105671804800001096810496000000000000000000001059290328000011204034560000000000000000000010707503220618112040345600000000000000000000107630132500001102053376000000000000000000000000000000000010905190400000000000000000000000000000000000112040345600000000000000000000106279967500001120403456000000000000000000000000000000000011204034560000000000000000000010220708920000))
 (.node 1 (.leaf 11204034560000000000000000000000000000000000112040345600000000000000000000104705633200001120403456000000000000000000001056665437061911204034560000000000000000000010587521520000112040345600000000000000000000107390425800001120403456000000000000000000001091412297000011204034560000000000000000000010765366690000112040345600000000000000000000108991493300001120403456000000000000000000001085424528000011204034560000000000000000000010808151760000112040345600000000000000000000108999146700001120403456000000000000000000000976170093000011204034560000000000000000000000000000000000112040345600000000000000000000104049838000001120403456000000000000000000001071296737000011204034560000000000000000000010573003790000)
 (.leaf 11204034560000000000000000000000000000000620112040345600000000000000000000000000000000001120403456000000000000000000000000000000000011204034560000000000000000000000000000000000112040345600000000000000000000000000000000001120403456000000000000000000000000000000000011204034560000000000000000000000000000000000112040345600000000000000000000000000000000001120403456000000000000000000000000000000000011204034560000000000000000000000000000000000112040345610725482840000000000102824278400001120403456000000000000000000000000000000000011204034560000000000000000000000000000000000112040345600000000000000000000000000000000001120403456000000000000000000001033552827000011204034560000000000000000000010656527390000)))))
 (.node 8 (.node 4 (.node 2 (.node 1 (.leaf 11204034560000000000000000000010864308850000112040345611016125461094067631000000000000001120403456000000000011025679651070979279000011204034560000000000108384317610691425740000112040345610840183341103677568108959309806211120403456000000000010554311701060001661000011204034561026605095107622653010758782970000112040345600000000001111040878108061348200001120403456111621577110605784201059411585000011204034561116935983102048423010390854940000112040345611198260591036080330104285478400001120403456111385771500000000000000000000000011204034561103466278000000000000000000000000112040345610833798590000000000103903005700001120403456000000000000000000000000000000000011204034560000000000000000000000000000000000)
 (.leaf 11204034560000000000000000000010296455060000112040345600000000000000000000000000000000001120403456000000000000000000000000000000000011204034560000000000000000000000000000000000112040345600000000000000000000000000000000001120403456000000000000000000000000000000000011204034560000000000000000000000000000000000112040345610524321090000000000000000000000001120403456000000000000000000000000000000000011204034560000000000000000000000000000000000112040345600000000000000000000000000000000001120403456000000000000000000001041988738000011204034560000000000000000000000000000000622112040345600000000000000000000000000000000001120403456000000000000000000000000000000000011204034560000000000000000000000000000000000))
 (.node 1 (.leaf 11204034560000000000000000000010342517410000112040345600000000001058795002105436046600001120403456000000000010864539210000000000000011204034560000000000108429112810319948710000112040345600000000001090905860105849328300001120403456000000000010903351201051874093000011204034560000000000108274049410318597850000112040345600000000001089769937000000000000001120403456000000000010834682051016314647000011204034560000000000107205823010594645150000112040345600000000001091944055105668416300001120403456000000000010597596920000000000000011204034560000000000105753000000000000000000112040345600000000001066888331000000000000001120403456000000000010575434220000000000000011204034560000000000106047775700000000000000)
 (.leaf 11204034560000000000099349304400000000000000112040345600000000001025087898104260559100001120403456000000000000000000000000000000000011204034560000000000000000000010836688260000112040345600000000000000000000000000000000001120403456105690642500000000001054684276000011204034560000000000000000000010502556630000112040345600000000000000000000103338808200001120403456000000000000000000001034908340000011204034560000000000000000000000000000000000111489843200000000000000000000000000000000001090519040000000000000000000000000000000000011099176961095232558110544263610604438270000112040345611090417481106132808000000000000001120403456000000000010843792080000000000000011204034560000000000103346308400000000000000)))
 (.node 2 (.node 1 (.leaf 11112284161045625492105223343300000000000623111201484800000000001049562500000000000006241109131264000000000010894935331038529702000011171266560000000000110275141310706855630000111935488000000000001103560704108311580600001115684864000000000010922176280996564577000011156848640000000000000000000010616625720000111280128000000000001082238435000000000000001103626240000000000000000000000000000000000010863247360000000000000000000010294309710000108632473600000000000000000000000000000000001096810496000000000010895480590000000000000011128012800000000000110574771910301656340000111896166400000000001103875801106637423000001109917696000000000010920910651047303569000011163402240000000000109459244310604239520000)
 (.leaf 11193548800000000000107841385910659022970625111817523200000000001047958598106590057200001120403456000000000000000000001036660361000011204034560000000000000000000010221944430000112040345600000000000000000000106878086200001120403456000000000000000000001052815791000011204034560000000000000000000010460545000000112040345600000000000000000000104618332506261120403456000000000000000000001040978907062711204034560000000000000000000010208472070000112040345600000000000000000000101880472100001120403456000000000000000000001049032317000011204034560000000000107935002810384445720000112040345600000000001107484449108526640100001120403456000000000011087650751073172752062811204034560000000000111568551910783219230629))
 (.node 1 (.leaf 11204034560000000000111484107510746900100000112040345600000000001114594161108214768700001120403456000000000011101989241059944791000011204034560000000000110797271910635074300000112040345600000000001107917695106848009106301120403456000000000011078162451074711469000011204034560000000000111156112910796758640631112040345600000000001115565484109270689406321120403456000000000011159610851092961362000011204034560000000000111666562310825921430000112040345600000000001116895406107196257200001120403456000000000011169127991070958027000011204034560000000000111696687910671927200000112040345600000000001117144154105278016200001120403456108477140911168816301033955308000011091312641106697619109055123100000000000000)
 (.leaf 10968104961086167468109044333300000000000000110205337600000000000000000000106694760506331093664768000000000000000000001036837565063410994319360000000000102107478800000000000000112040345600000000000000000000109291816206351120403456000000000000000000001092031424000011204034560000000000104300596410906688440000112040345600000000001095952971109466766706361120403456000000000011056263991086349644063711204034560000000000000000000010920738250638112040345600000000000000000000108912289906391120403456000000000000000000001082763897000010968104960000000000000000000010505350890000111122841600000000001078037630104706999100001110441984000000000010856513401044533923000011128012800000000000109282779510330237420000))))
 (.node 4 (.node 2 (.node 1 (.leaf 11204034560000000000107719247810458719220000111896166400000000001084374804105015139500001100480512000000000000000000000000000000000011204034560000000000000000000010540705570000111817523200000000000000000000104782469900001106771968000000000000000000000000000000000010905190400000000000000000000000000000000000110913126400000000000000000000107107370500001116340224000000000000000000001047122253000011193548800000000000000000000010804787730000112040345600000000000000000000107692053700001120403456000000000000000000001026904579000011204034560000000000000000000010695204920000112040345600000000000000000000104224223200001120403456000000000000000000000000000000000011204034560000000000000000000000000000000000)
 (.leaf 11204034560000000000000000000010465113970640112040345600000000000000000000107837397100001120403456105144869600000000001084857105000011204034561099555144104865653110841282500000112040345600000000000000000000107575560800001120403456109605784810435629681072231881000011204034560000000000000000000000000000000000112040345600000000000000000000000000000000001120403456000000000000000000000000000000064111204034560000000000000000000010643035670000112040345600000000000000000000107796672700001120403456000000000000000000001036981245000011204034560000000000000000000000000000000000112040345600000000000000000000000000000000001120403456105056111400000000000000000000000011204034560000000000000000000000000000000000))
 (.node 1 (.leaf 11204034560000000000000000000000000000000000112040345600000000000000000000000000000000001120403456000000000000000000000000000000000011204034560000000000000000000000000000000000112040345610586762871029302334000000000000001120403456000000000000000000000000000000000011204034560000000000000000000000000000000000112040345600000000000000000000000000000006421120403456000000000000000000000000000000000011204034560000000000000000000010764878760000112040345600000000000000000000109873277600001120403456000000000000000000001068959946000011204034560000000000000000000010696532460000112040345610965692961031369287108631633106431120403456000000000000000000001079760828000011204034560000000000000000000010658087050000)
 (.leaf 11204034560000000000000000000010527666410000112040345600000000000000000000107693880000001120403456000000000000000000001065868508000011204034561104141719104978731510654843500000112040345611112143411083714201104675051100001120403456110169836411057473000000000000000011204034560000000000000000000010444695550000112040345600000000000000000000105009323400001120403456000000000000000000000000000000000011204034560000000000000000000000000000000000112040345600000000000000000000106642146800001120403456000000000000000000000000000000000011204034561051061075000000000010515361610000112040345600000000000000000000000000000000001120403456000000000010250610541028343225000011204034560000000000000000000000000000000000)))
 (.node 2 (.node 1 (.leaf 11204034560000000000000000000000000000000000112040345600000000000000000000000000000000001120403456106017712600000000000000000000000011204034560000000000000000000000000000000000112040345600000000000000000000102246152406441120403456000000000000000000001020406495064511204034560000000000102983920500000000000646112040345600000000000000000000000000000000001120403456000000000000000000000000000000000011204034560000000000000000000000000000000000112040345600000000000000000000100746088600001120403456000000000000000000001058251144000011204034560000000000107360257310326430920000112040345600000000001062034683103253924706471120403456103431321910936402311062711871000011204034560000000000108308966910579415880000)
 (.leaf 11204034560000000000000000000010496842590000112040345600000000001059739560103075564900001120403456000000000010893570080000000000000011204034561046509517109961239610342396560000112040345600000000001074448564102356573400001120403456000000000010704484560000000000000011204034560000000000106402446000000000000000112040345610300730121058655751000000000000001120403456102504467910183367460000000000000011204034560000000000103590584600000000000000112040345600000000000000000000000000000000001120403456000000000000000000000000000000000011204034560000000000000000000000000000000000112040345600000000000000000000000000000000001120403456000000000000000000001032982693000011204034560000000000000000000010583431340000))
 (.node 1 (.leaf 11204034560000000000000000000010502282830000112040345600000000000000000000000000000000001120403456000000000000000000000000000000000011204034560000000000000000000000000000000000112040345600000000000000000000000000000000001120403456000000000000000000000000000000000011204034560000000000000000000000000000000000112040345600000000000000000000000000000000001120403456000000000000000000000000000000000011160780800000000000000000000000000000000000110048051200000000000000000000000000000000001120403456000000000010253026460000000000000011204034560000000000106619207700000000000000112040345600000000001054283609000000000000001120403456000000000010867194200000000000000011204034560000000000108415879700000000000000)
 (.leaf 11204034560000000000108279187400000000000000111791308800000000001025114741000000000000001090519040000000000010852189081055763712000011112284160000000000109791254910533335050000111817523200000000001053310530106255200400001106771968000000000000000000000000000000000011051991040000000000000000000000000000000000110519910400000000000000000000000000000000001086324736000000000000000000000000000000000010936647680000000000000000000000000000000000110913126400000000001070531504000000000000001117519872000000000010940362781058287213000011171266560000000000110332917810613903820000110913126400000000001099057123104399361206481115684864000000000011030563391067816043000011185684480000000000109403166510685302570000))))))
 (.node 16 (.node 8 (.node 4 (.node 2 (.node 1 (.leaf 11196170240000000000105790916510408190080000112040345610465038120000000000105081733100001120403456000000000000000000001075632022064911204034561043136290000000000010867983850000112040345600000000000000000000000000000000001120403456000000000000000000001059029848065011204034560000000000000000000010557251270000112040345600000000000000000000106189272900001120403456000000000010722125811076332440000011204034560000000000110781081810764581170000112040345610467139301107125443106913183106511120403456000000000011079833351071257348000011204034560000000000110768129310803776710000112040345600000000001107724757107019110006521120403456000000000011077508921068304256065311204034560000000000110796354410634429550000)
 (.leaf 11204034560000000000110565282310833578520654112040345600000000001105949832107382520706551120403456000000000011050134011084617701065611204034560000000000110187590510969628870657112040345600000000001098702442108359892306581120403456000000000010909943601081406520065911204034560000000000109825459510914656430660112040345600000000001116889324106152839300001120403456000000000011113302851081022738066111204034560000000000111134832110936228150662112040345600000000001108454723108911081200001120403456000000000011169791341066447502000011204034560000000000111706835510506345900000112040345611031258901113165503108237054600001120403456111545106011028837961087029152000011204034561116561461109804278310919563850000))
 (.node 1 (.leaf 11204034561117606097109872404210534461900000111201484811106608031083582290105605734300001109131264110734115410855420791066115604000010905190401078388496108354495310464050920000109366476810932928980000000000105208723200001120403456000000000011042286471096620144000011204034561067189952108287345310814173510000112040345610464279121046589578109361615806631120403456105439527810672314251098712192066411204034561047354149110459559610921486720665112040345600000000000000000000109973065600001120403456000000000000000000001091267668000010821496630000000000000000000000000000000000109681049600000000001048961876105008851100001108344832000000000010804799731054760090000011083448320000000000106434993800000000000000)
 (.leaf 11004805120000000000106121595500000000000000109051904000000000001026591136000000000000001116733440106962030010330335871043536053066611204034561093537293108257607710589153870667112040345610979809241076521389102302502606681120403456109903571510826241021048592992066911204034561024997435107833290900000000000670112040345600000000001042153682104864621206711077936128000000000000000000000000000000000011204034560000000000000000000010462958360000111122841600000000000000000000105150161100001118175232000000000000000000001050157990000011141120000000000000000000000010234249080000110755840000000000000000000000104226920400001118175232000000000000000000001064391734000011135877120000000000000000000009643288880000)))
 (.node 2 (.node 1 (.leaf 10779361280000000000000000000000000000000000110755840000000000000000000000104213797600001102053376000000000000000000001025129925000011004805120000000000000000000000000000000000110205337600000000000000000000000000000000001093664768000000000000000000000000000000000011204034560000000000000000000010756595900000112040345600000000000000000000108291367500001120403456000000000000000000001072008622000011204034560000000000000000000010682188020000112040345600000000000000000000103637180800001120403456000000000000000000001038861990000011204034560000000000000000000010534324150000112040345600000000000000000000103018458900001120403456000000000000000000000000000000000011204034560000000000000000000000000000000000)
 (.leaf 11204034560000000000000000000000000000000000112040345610676529950000000000103505314400001120403456000000000000000000001057768984000011204034560000000000000000000010377599670000112040345600000000000000000000000000000000001120403456106892200700000000001069184192000011204034560000000000000000000000000000000000112040345600000000000000000000000000000000001120403456000000000000000000000000000000000011204034560000000000000000000000000000000000112040345610154419380000000000102553302600001120403456000000000000000000000000000000000011204034560000000000000000000000000000000000112040345600000000000000000000000000000000001120403456105220565000000000000000000000000011204034560000000000000000000000000000000000))
 (.node 1 (.leaf 11204034560000000000000000000010939132330000112040345600000000000000000000107483860500001120403456000000000000000000001065894660000011204034560000000000000000000010828842660000112040345600000000000000000000108537354900001120403456000000000000000000001051324952000011204034560000000000000000000010739029710000112040345600000000000000000000102562199100001120403456000000000000000000001041490629000011204034560000000000000000000010660481850000112040345600000000000000000000106892917700001120403456000000000000000000001062686355067211204034560000000000000000000010766128240673112040345600000000000000000000105752302100001120403456109357877010955812501061007378000011204034561044865752000000000000000000000000)
 (.leaf 11204034560000000000000000000000000000000000112040345600000000000000000000107665534100001120403456000000000000000000000000000000067411204034560000000000000000000000000000000000112040345600000000000000000000000000000000001120403456000000000000000000000000000000000011204034560000000000000000000000000000000000112040345610294609800000000000000000000000001120403456000000000000000000000000000000000011204034560000000000000000000000000000000675112040345600000000000000000000000000000000001120403456102657556700000000000000000000000011204034561043959313104238856300000000000000112040345600000000000000000000000000000000001120403456000000000010754682001031435475067611204034560000000000109321262210654606250000))))
 (.node 4 (.node 2 (.node 1 (.leaf 11204034560000000000108710257010412959210000112040345610661376181076327193106424067800001120403456000000000010871591931062915553000011204034560000000000103010764100000000000000112040345600000000001094403490000000000000001120403456000000000010743499980000000000000011204034560000000000107445946900000000000000112040345600000000000000000000102861674500001120403456000000000010563606280000000000000011204034560000000000000000000000000000000000112040345600000000000000000000000000000000001120403456000000000000000000000000000000000011204034560000000000000000000000000000000000112040345600000000000000000000000000000000001120403456000000000000000000001043795285000011204034560000000000000000000000000000000000)
 (.leaf 11204034560000000000000000000000000000000000112040345600000000000000000000000000000000001120403456000000000000000000000000000000000011204034560000000000103362414500000000000000111673344000000000000000000000000000000000001103626240000000000000000000000000000000000010779361280000000000000000000000000000000000110755840000000000000000000000106669661000001120403456000000000010508577010000000000000011204034560000000000107046691100000000000000112040345600000000001089219435103907398300001120403456000000000010789557630000000000000010905190400000000000000000000010473309860000110755840000000000001073158816107106346400001108344832000000000000000000001044940308000011175198720000000000107426988710702489330000))
 (.node 1 (.leaf 11171266560000000000000000000010345062580000110755840000000000001083386416104520134400001086324736000000000000000000000000000000000010614137410000000000000000000000000000000000109051904000000000000000000000103356095300001105199104000000000010925072451042269593000011099176960000000000109936273010579217170000107437503800000000000000000000000000000000001086324736000000000010853927620000000000000011104419840000000000109075245310440964960000111607808000000000001097182740104929734400001120403456000000000000000000001028109633000011204034560000000000000000000010467608880000112040345600000000000000000000106104884400001120403456000000000000000000001087690620067711204034560000000000000000000010673995270000)
 (.leaf 11204034561057924701000000000010792558070000112040345600000000000000000000102256094300001120403456000000000000000000001045103426000011204034560000000000000000000010367677150000112040345600000000000000000000102409811300001120403456106407061500000000000000000000000011204034560000000000110806129700000000000000112040345600000000001108052279103373136300001120403456000000000011080579421020317077000011204034560000000000110801830510536170660000112040345600000000001107588232108312132200001120403456000000000011077138511079941534000011204034560000000000110586374410811399630678112040345600000000001101921151107986721606791120403456000000000011076436231082686739000011204034560000000000110649949610647392340680)))
 (.node 2 (.node 1 (.leaf 11204034560000000000109867874410990141840681112040345600000000001107808931109751772006821120403456000000000011042025901072832957068311204034560000000000110429386810935957430684112040345600000000001109094144107918196506851120403456000000000011162924611088490740068611204034560000000000111640437110859875550000112040345600000000001116788857107659558000001120403456106625523511169437971059309203000011204034561106813690111218872810778199000000112040345611135752561107903749105264567700001120403456111326984811079709621064108721000011120148481109763896109035147810397426500000109681049610859466571016833507104038382700001113587712110807719710782616061091947313000011204034561111320974108770550110933994810000)
 (.leaf 11204034561117408572108291938110854323510000112040345611105164901092710144109754559200001120403456111597508310816271161094915493068711204034560000000000105089796710949710600688112040345600000000001025007367108768442606891120403456000000000010917885511092400130069011204034561037326407109933892710878077850691112040345600000000001089689826108831804100001120403456104896966110707236031085130130069211204034561085211081108479800910858150790693112040345610915027801109783111109952854700001120403456102996456511061020331097526521000011204034560000000000110489863510951222200694112040345600000000001101955701109324163900001120403456000000000010772675561090127714000011196170240000000000000000000010980043820000))
 (.node 1 (.leaf 11204034560000000000108214028910845066520000111411200000000000001084148102108039529200001111228416000000000010947861151060405628000010905190400000000000107407065710540651210000110048051200000000001047723717102836908400001120403456102504306910853386551060604754069511204034560000000000107399348210133986060696111044198400000000001016779820000000000000001096810496000000000000000000000000000000000011120148480000000000000000000010488548560000112040345600000000001019947359105705659106971120403456000000000010734507391040676297069810779361280000000000000000000010296235890000108632473600000000000000000000102981005700001120403456000000000000000000001049346799000011179130880000000000000000000010759483220000)
 (.leaf 10863247360000000000000000000010308907400000109943193600000000000000000000103008410400001108344832000000000000000000001038079041000011104419840000000000000000000010597416740000110048051200000000000000000000000000000000001077936128000000000000000000000000000000000010936647680000000000000000000000000000000000108632473600000000000000000000095726393000001052065392000000000000000000000000000000000011141120000000000000000000000010650581860000111607808000000000000000000000105826104300001099431936000000000000000000000000000000000011204034560000000000000000000010902553150699112040345600000000000000000000103096543207001120403456000000000000000000001028166367000011204034560000000000000000000010687235320000)))))
 (.node 8 (.node 4 (.node 2 (.node 1 (.leaf 11204034560000000000000000000010599909630000112040345600000000000000000000105786658600001120403456000000000000000000000000000000000011204034560000000000000000000000000000000000112040345600000000000000000000000000000000001120403456000000000000000000000000000000000011204034561082404337104803912910672139720000112040345600000000000000000000106738836600001120403456000000000000000000000000000000000011204034560000000000000000000000000000000000112040345600000000000000000000000000000000001120403456000000000000000000000000000000070111204034560000000000000000000000000000000000112040345600000000000000000000000000000000001120403456000000000000000000000000000000000011204034560000000000000000000000000000000000)
 (.leaf 11204034560000000000000000000010519684300000112040345600000000000000000000105341721400001120403456000000000000000000000000000000000011204034560000000000000000000000000000000000112040345600000000000000000000000000000000001120403456000000000000000000000000000000000011204034560000000000000000000010616905300000112040345600000000000000000000106082799300001120403456000000000000000000001074509469000011204034560000000000000000000010871068630000112040345600000000000000000000109123997500001120403456000000000000000000001075703290000011204034560000000000000000000010758389860000112040345600000000000000000000106574942900001120403456000000000000000000001084732541000011204034560000000000000000000010739556820000))
 (.node 1 (.leaf 11204034560000000000000000000010804412720000112040345600000000000000000000106665122300001120403456000000000000000000001072547391000011204034560000000000000000000010668574790000112040345600000000000000000000105566503200001120403456000000000000000000001018223538000011204034560000000000000000000000000000000000112040345600000000000000000000108225850500001120403456000000000000000000001047656387000011204034560000000000000000000000000000000000112040345600000000000000000000000000000000001120403456000000000000000000001037233900000011204034560000000000000000000000000000000000112040345609939010660000000000102879314800001120403456000000000000000000000000000000000011204034560000000000000000000000000000000000)
 (.leaf 11204034560000000000000000000010712478590000112040345600000000000000000000108622216800001120403456000000000000000000000000000000070211204034560000000000000000000000000000000000112040345600000000000000000000000000000000001120403456000000000010496866520000000000000011204034560000000000000000000000000000000000112040345600000000000000000000000000000000001120403456000000000000000000000000000000000011204034560000000000000000000010307235610000112040345600000000000000000000000000000000001120403456000000000000000000000000000000000011204034561049371643000000000010324251510000112040345600000000000000000000000000000007031120403456000000000000000000000000000000000011204034560000000000000000000000000000000000)))
 (.node 2 (.node 1 (.leaf 11204034560000000000000000000010536405900000112040345600000000000000000000102829713100001120403456000000000000000000000000000000000011204034560000000000107848767910255976020704112040345600000000001088417274104287923800001120403456000000000010867865291047404289000011204034560000000000109203475710480785650000112040345600000000000000000000000000000000001120403456000000000010397444730000000000000011204034560000000000102503421100000000000000112040345600000000001070627973000000000000001120403456000000000010513241080000000000000011204034560000000000104691170000000000000000112040345600000000001066537687000000000000001120403456000000000010708427210000000000000011204034560000000000105920101100000000000000)
 (.leaf 11204034560000000000103859020100000000000000112040345600000000001050579200000000000000001120403456000000000010530588720000000000000011204034560000000000000000000000000000000000112040345600000000000000000000000000000000001120403456000000000000000000000000000000000011020533760000000000000000000000000000000000110519910400000000000000000000102777087500001100480512000000000000000000000000000000000011141120000000000000000000000010494325950000107793612800000000000000000000000000000000001120403456000000000010335167711035427559000011204034560000000000105867420600000000000000112040345600000000001052011974107030988500001120403456103382614310671919990000000000000011200102400000000000105646800200000000000000))
 (.node 1 (.leaf 11196170240000000000104178458300000000000000111961702400000000001049579278000000000000001090519040000000000010390331200000000000000010994319360000000000108218705510199861080000109366476800000000001050991919102833716200001067987407000000000000000000000000000000000010940637510000000000000000000000000000000000109943193600000000000000000000103718742200001086324736000000000000000000000000000000000010994319360000000000000000000000000000000000108632473600000000000000000000000000000000001100480512000000000000000000000000000000000010905190400000000000000000000000000000000000108632473600000000000000000000000000000000001077936128000000000010689829670000000000000011120148480000000000110161695910521291480705)
 (.leaf 11204034560000000000000000000010763842100000112040345600000000000000000000106812788107061120403456105814290500000000001082908294070711204034560000000000000000000010325760390000112040345600000000000000000000105262114000001120403456000000000000000000000000000000000011204034560000000000000000000000000000000000112040345600000000000000000000000000000000001120403456000000000010603334731030234646000011204034560000000000110793224410663244300000112040345600000000001108023470105401516500001120403456000000000011074362151085985095000011204034560000000000110636795210949617620708112040345600000000001105785101109145283307091120403456000000000011074065661086602741000011204034560000000000110769720510808287470000))))
 (.node 4 (.node 2 (.node 1 (.leaf 11204034560000000000111678215910771020420000112040345600000000001115869086108522409707101120403456000000000011089615521083366429071111204034561043321913111273257210910823070712112040345600000000001099211525108250071407131120403456000000000011096471371048956732071411204034560000000000111511000810813736270715112040345600000000001111988371108534360107161120403456104938959410596523181096751508071711204034560000000000109069604010941237240718112040345600000000001078561499108796629407191120403456000000000000000000001087804451072011204034560000000000111668773510812904250000112040345600000000001116806801107911815300001120403456100625392911168441961081790724000011204034560000000000111698964610765739320000)
 (.leaf 11204034561073684698111578020610944564700000112040345610321392941116572942108560481900001120403456108406830511163378911081478882000011204034561034518706111723793610609174560000112040345600000000001117199480105869404500001120403456107687076611014132731096832301000011204034561097861849109535108810968980590721112040345611127612011082971180109089115307221120403456000000000010641419011092202476000011204034560000000000000000000010970568090723112040345600000000001034630778109995656407241120403456110026295310963761761100278806000011204034561111906740109340031710901482110000112040345600000000001100797025107446523607251120403456000000000011077000101083278480000011204034561055807416109521613610845150710726))
 (.node 1 (.leaf 11204034560000000000111032249910882468070000112040345600000000001106914417108514242800001118175232000000000010806989161069818215000011135877120000000000109939319110676815700000109943193600000000001058964452104374778100001086324736000000000000000000001034250312000011128012800000000000104961618710599907550000111358771200000000001016833507104736941500001119617024000000000010521126371085032513072711204034560000000000104441525010749710400000112040345600000000000000000000106235684900001120403456000000000000000000001050408783072811135877120000000000000000000010328810680729107424308500000000000000000000000000000000001100480512000000000000000000000000000000000010936647680000000000000000000000000000000000)
 (.leaf 10863247360000000000000000000000000000000000111607808000000000001082965518105546309300001119354880000000000010458312471064641072073011204034560000000000103599979910263446900731112040345600000000000000000000102413277500001120010240000000000000000000001007415308000011067719680000000000000000000000000000000000112040345600000000000000000000106115154800001120403456000000000000000000001073961128000011141120000000000000000000000010679223750000110519910400000000000000000000102526427400001118568448000000000000000000001032377466000011171266560000000000000000000010570127390000110991769600000000000000000000106718202700001077936128000000000000000000000000000000000010863247360000000000000000000010568110770000)))
 (.node 2 (.node 1 (.leaf 11204034560000000000000000000010594521170000112040345600000000000000000000105720117100001120403456000000000000000000001082358045000011204034560000000000000000000010741764000000112040345600000000000000000000105274765600001120403456000000000000000000001076686422073211204034560000000000000000000010681329680000112040345600000000000000000000107569068400001120403456000000000000000000001078992410000011204034560000000000000000000010848797470000112040345600000000000000000000104436109100001120403456000000000000000000000000000000000011204034560000000000000000000000000000000000112040345600000000000000000000102205452400001120403456000000000000000000001033792028000011204034560000000000000000000010282572870000)
 (.leaf 11204034560000000000000000000000000000000000112040345600000000000000000000000000000000001120403456000000000000000000001021773269000011204034560000000000000000000010339494030000112040345600000000000000000000000000000000001120403456000000000000000000001077233845000011204034560000000000000000000000000000000000112040345600000000000000000000105010026900001120403456000000000000000000000000000000000011204034560000000000000000000010527438480000112040345610458309120000000000000000000000001120403456000000000000000000001063475512000011204034560000000000000000000000000000000000112040345610584933480000000000000000000000001120403456000000000000000000000000000000000011204034560000000000000000000000000000000000))
 (.node 1 (.leaf 11204034560000000000000000000000000000000000112040345600000000000000000000000000000000001120403456000000000000000000000000000000000011204034560000000000000000000000000000000000112040345600000000000000000000000000000000001120403456000000000000000000000000000000000011204034560000000000000000000000000000000000112040345600000000000000000000105727457900001120403456000000000000000000001067185335000011204034560000000000000000000000000000000000112040345600000000000000000000103982346100001120403456000000000000000000001066362728000011204034560000000000000000000010674820830000112040345600000000000000000000107726337800001120403456000000000000000000001055025016073311204034560000000000000000000000000000000734)
 (.leaf 11204034560000000000000000000000000000000000112040345600000000000000000000000000000000001120403456000000000000000000001068015343000011204034560000000000000000000010816383590000112040345600000000000000000000105306284300001120403456000000000000000000001056128798073511204034560000000000000000000000000000000000112040345600000000000000000000102025555200001120403456000000000000000000001023974005000011204034560000000000000000000000000000000000112040345600000000000000000000000000000000001120403456000000000000000000001035933866000011204034560000000000000000000010503889730000112040345600000000001045294377000000000000001120403456000000000000000000000000000000000011204034560000000000101731669100000000000000))))))))
 (.node 64 (.node 32 (.node 16 (.node 8 (.node 4 (.node 2 (.node 1 (.leaf 11204034560000000000000000000010740358910000112040345600000000000000000000000000000000001120403456000000000000000000000000000000000011204034560000000000107395195900000000000000112040345600000000001067554387104600003500001120403456000000000010584191931059829806000011204034560000000000106536999310039434530000112040345610435994081054894300102226551500001120403456104544476810599543080000000000000011204034560000000000098015180200000000000000112040345600000000000000000000104109418500001120403456000000000000000000001033361821000011204034560000000000102500736710322919480000112040345600000000000000000000000000000007361120403456000000000000000000000000000000073711204034560000000000000000000000000000000000)
 (.leaf 11204034561052203771000000000010189583490000112040345600000000000000000000000000000000001120403456000000000000000000000000000000000011204034560000000000000000000000000000000000112040345600000000001039610256102603457107381120403456000000000010763502621017663765073911204034561041194293108854100610484933180000112040345610763653281091802182102925532700001120403456000000000010633634381047394573000011204034560000000000000000000000000000000000112040345600000000001084895317000000000000001120403456000000000010699250070000000000000011204034560000000000105729176400000000000000112040345600000000001071390497102599127300001120403456000000000010798650880000000000000011204034560000000000107953080200000000000000))
 (.node 1 (.leaf 11204034560000000000103524818000000000000000112040345600000000000000000000000000000000001120403456000000000000000000000000000000000011204034560000000000000000000000000000000000112040345600000000000000000000000000000000001120403456000000000000000000000000000000000011204034560000000000000000000000000000000000112040345611092863771057170968104295968907401120403456111473056310509650760000000000000011204034561109302797109439803710273268130000112040345610965373850000000000000000000000001120403456000000000010251147410000000000000011204034560000000000000000000000000000000000112040345600000000000000000000000000000000001113587712000000000000000000000000000000000011075584000000000000000000000000000000000000)
 (.leaf 10968104960000000000000000000010349498240000110519910400000000001025061054105815405400001108344832000000000000000000001073713808000011099176960000000000000000000000000000000000108632473600000000000000000000000000000000001086324736000000000000000000000000000000000011112284160000000000000000000000000000000000112040345600000000001039234446000000000000001120403456000000000010497638270000000000000011204034560000000000104132153210410815470000112001024000000000001085965913104477792000001112014848000000000010518643340000000000000010779361280000000000000000000000000000000000110048051200000000000000000000000000000000001117913088000000000000000000001043163983000011004805120000000000000000000010339187160000)))
 (.node 2 (.node 1 (.leaf 10905190400000000000000000000000000000000000111896166400000000000000000000107216418500001118961664000000000000000000001059350079000011083448320000000000000000000010345962940000108632473600000000001080755539000000000000001116340224000000000010990747391063527768000011200102400000000000110546523310749298480000111896166400000000001102012691107166769200001120403456000000000000000000001008138721000011204034560000000000000000000010849023450741112040345600000000000000000000108571900707421120403456000000000000000000001075099955000011204034560000000000000000000010428597000000112040345600000000000000000000103482562800001120403456000000000000000000001028206291000011204034560000000000000000000000000000000000)
 (.leaf 11204034561051948992110803081010432973330000112040345600000000001107669208108268553500001120403456000000000011074416671087012099000011204034561053373277110789926610293224690743112040345600000000001107923121106713533900001120403456000000000011074383121087704629000011204034560000000000110780127610717809380000112040345600000000001107679720108117075400001120403456000000000011075447691076732632074411204034560000000000110745820910862983130000112040345600000000001107529354108515569200001120403456000000000011069245881076204139074511204034560000000000000000000010880580040746112040345600000000001103490764107906420907471120403456000000000011008268571020720809074811204034560000000000110602071610808582110000))
 (.node 1 (.leaf 11204034560000000000109850761610923662550749112040345600000000000000000000109504200500001120403456000000000010972469131091008516000011204034560000000000110828335910842113420750112040345600000000001117041485106033833400001120403456105305420811166892431082817010000011204034560000000000111674266710815028190000112040345610335122081077170248110071458900001120403456108334531811028440021093341352000011204034561113085998108456606410927179800000112040345611184358931067053587107827293300001120403456110936649610759379621095059349075111204034560000000000108900615510953335790000112040345600000000001071381270108579367700001120403456000000000010914494411082897845000011204034561015540722107849690610775843840000)
 (.leaf 11128012800000000000000000000010767578290000100898177000000000000000000000000000000000001093664768000000000000000000001036770110000011179130880000000000106924133610658759790752112040345600000000001046119816108877022207531120403456000000000000000000001058342721000011204034560000000000000000000010762315180754112040345600000000000000000000108034606700001120403456000000000000000000001032861350000011204034560000000000000000000010415833150755112040345600000000000000000000105080487800001117913088000000000000000000001033557208000010779361280000000000000000000000000000000000110048051200000000000000000000103046344900001107558400000000000000000000000000000000000011204034561042580159000000000010585147860000))))
 (.node 4 (.node 2 (.node 1 (.leaf 11200102400000000000000000000010782074190000111935488000000000000000000000108092193100001120403456000000000000000000001074549401000011204034560000000000000000000010824202210000112040345600000000000000000000108265604007561120403456000000000000000000001062752077000011204034560000000000000000000010646629910000112040345600000000000000000000108018019000001120403456000000000000000000001078765615000011204034560000000000000000000010712545530000112040345600000000000000000000107420918800001120403456000000000000000000001077129071000011204034560000000000000000000010870919140000112040345600000000000000000000108331976900001120403456000000000000000000001085566125000011204034560000000000000000000010834628410000)
 (.leaf 11204034560000000000106293058610809802900000112040345610412966341106940055106947372400001120403456000000000000000000000000000000000011204034560000000000000000000000000000000000112040345600000000000000000000106818080600001120403456000000000010874280481067802649000011204034561025196882000000000010184746040000112040345610925568860000000000103916549200001120403456109354394100000000000000000000000011204034560000000000000000000000000000000000112040345600000000000000000000102973732400001120403456000000000000000000001050389241000011204034560000000000000000000010301600340000112040345600000000000000000000000000000000001120403456000000000000000000000000000000000011204034560000000000000000000010376432370000))
 (.node 1 (.leaf 11204034560000000000000000000000000000000000112040345600000000000000000000000000000000001120403456000000000000000000000000000000000011204034560000000000000000000010331705290000112040345600000000000000000000000000000000001120403456000000000000000000000000000000000011204034560000000000000000000000000000000000112040345600000000000000000000000000000000001120403456000000000000000000000000000000000011204034560000000000000000000000000000000000112040345600000000000000000000000000000000001120403456000000000000000000000000000000000011204034560000000000000000000000000000000000112040345600000000000000000000107173209500001120403456000000000000000000001057316140000011204034560000000000000000000010617537970000)
 (.leaf 11204034560000000000000000000010682029560000112040345600000000000000000000105917828600001120403456000000000000000000001031848123000011204034560000000000000000000010584506670000112040345600000000000000000000106702266600001120403456000000000000000000001031519720000011204034560000000000000000000000000000000000112040345600000000000000000000104580718200001120403456000000000000000000001061642018000011204034560000000000000000000000000000000757112040345600000000000000000000106562681800001120403456000000000000000000001071750804000011204034560000000000000000000010522448890000112040345600000000000000000000000000000000001120403456000000000000000000000000000000000011204034560000000000105626332010261002290000)))
 (.node 2 (.node 1 (.leaf 11204034560000000000000000000000000000000000112040345600000000000000000000102645814700001120403456102516440210701271730000000000000011204034561033580390102514158500000000000000112040345600000000000000000000000000000000001120403456000000000000000000001031118566000011204034560000000000000000000000000000000000112040345600000000001033476506000000000007581120403456000000000000000000000000000000000011204034560000000000000000000000000000000000112040345600000000000000000000000000000000001120403456000000000010494215720000000000075911204034561024972202106327451910173786800760112040345600000000001051803936000000000000001120403456105839587210791491210000000000000011204034560000000000104385153610496353910000)
 (.leaf 11204034560000000000000000000010481647930000112040345600000000001101543820000000000000001120403456000000000010926715570000000000000011204034561077247167109355487700000000000000112040345600000000001075118814000000000000001120403456000000000010383754530000000000000011204034560000000000103841571800000000000000112040345600000000001075005148000000000000001120403456000000000000000000000000000000000011204034560000000000000000000000000000000000112040345600000000001087333256000000000007611120403456000000000010877512190000000000000011204034561098980464107669755010299020380000112040345610922561611030241858104770327500001120403456000000000010504013610000000000000011204034561088782009000000000000000000000000))
 (.node 1 (.leaf 11204034561086133834000000000000000000000000112040345600000000001078064054000000000000001120403456000000000010930464230000000000000011204034560000000000108717450200000000000000112040345600000000000000000000000000000000001120403456000000000010300002661026857894000011204034560000000000105116640200000000000000112040345610791114521084602345000000000000001105199104000000000010183904330000000000000011175198720000000000105303202900000000000000112040345600000000001094937320000000000000001118175232000000000000000000000000000000076210994319360000000000000000000000000000000000111411200000000000000000000000105391051900001120403456000000000000000000000000000000000011204034560000000000106035360600000000000000)
 (.leaf 11204034560000000000107504289710412519700000112040345600000000001072935679000000000000001106771968000000000000000000001039798872000011112284160000000000000000000000000000000000110519910400000000000000000000000000000000001099431936000000000000000000000000000000000010905190400000000000000000000000000000000000109051904000000000000000000000000000000000001119354880000000000000000000001062286544000011083448320000000000000000000010556876240000110519910400000000001090253331106148276500001109131264000000000010967456941074352791000011141120000000000000108768683610693712670000112001024000000000001103981078107149281907631120403456000000000000000000000000000000000011204034560000000000000000000010700266140764)))))
 (.node 8 (.node 4 (.node 2 (.node 1 (.leaf 11204034560000000000000000000010754433590765112040345610390156710000000000107572948907661120403456102637638800000000001063180841000011204034560000000000000000000010611868820000112040345600000000000000000000107758222000001120403456104268907600000000001070496224000011204034560000000000000000000010531598340000112040345600000000000000000000102482374100001120403456104538705410993360961018687251000011204034560000000000110804960510412997840000112040345600000000001108053249103584494900001120403456000000000011074304741083786632000011204034560000000000110715281110764624500767112040345600000000001107947317103612922707681120403456000000000011073232311088008143000011204034560000000000110764097510808374370000)
 (.leaf 11204034560000000000110789116610713434100000112040345600000000001111727486106982959800001120403456000000000011167466651038541150000011204034560000000000110515170800000000000769112040345600000000001107995289108271830800001120403456000000000011076194801082897193000011204034560000000000110763780310825660570000112040345600000000001109810558108829510600001120403456000000000011158046111094320102000011204034560000000000111634572910874247750000112040345600000000001116046361109193216300001120403456000000000011158958371093010394077011204034560000000000111570722510931150800771112040345600000000001115144507109598508007721120403456000000000011169453441069093584000011204034561066382901111676910510752429760000))
 (.node 1 (.leaf 11067719680000000000110063444310505951650000110677196800000000001103813673104062017300001088958738000000000000000000001035767429000011204034560000000000109801216410849762950773112040345600000000000000000000108615768700001120403456000000000010498644901093334062000011204034561042212536107450686510971431030000112040345610254478701078110611109592536907741120403456104312078810981368401090934397000011204034561027582200109104364310914652360000112040345610957464411097089732109852815400001120403456111642936610807526031092047821000011204034561109857199109290748610884793830775112040345611110687521088092425109084598507761120403456111022404710992231121085278096000011204034560000000000110345259610864899960000)
 (.leaf 11204034561015209473110349931010916659850000112001024000000000001066868199108217421200001120403456000000000000000000001081609854000011200102400000000000000000000010828772650000108632473600000000001025007367104048078300001111228416000000000010250342111063331632077711204034560000000000000000000010572799430000112040345600000000000000000000106188454600001120403456000000000000000000001062593501077810905190400000000000000000000000000000000000111280128000000000001034791839105373469100001112014848000000000000000000001035491191077911204034560000000000000000000010426821590000112040345600000000000000000000105078238907801120403456000000000000000000001045627305000011204034560000000000000000000010180828720000)))
 (.node 2 (.node 1 (.leaf 11112284160000000000000000000000000000000781110755840000000000000000000000102114394500001117126656000000000000000000000000000000078211200102400000000000000000000010692485760000112001024000000000000000000000105825597907831117913088000000000000000000001060813437000011204034560000000000000000000010090320230000112040345600000000000000000000000000000000001120403456103335463600000000000000000000000011204034560000000000000000000010853843160784112040345600000000000000000000108514226100001120403456000000000000000000001079269597000011204034560000000000000000000010673261830000112040345610589523050000000000106483518200001120403456000000000000000000001064864787000011204034560000000000000000000010561832040000)
 (.leaf 11204034560000000000108375216000000000000000112040345600000000000000000000000000000000001120403456000000000000000000001033264097000011204034560000000000000000000010269092310000112040345600000000001083942581000000000000001120403456107166626400000000001017105869000011204034561084205396000000000000000000000000112040345610927937911021719033103294185700001120403456110048624100000000001034686962000011204034560000000000000000000000000000000000112040345600000000000000000000000000000000001120403456000000000000000000000000000000000011204034560000000000000000000000000000000000112040345600000000000000000000000000000000001120403456000000000000000000001043996509000011204034560000000000000000000010341336490000))
 (.node 1 (.leaf 11204034560000000000000000000010402314270000112040345600000000000000000000000000000000001120403456000000000000000000001024437666000011204034560000000000000000000000000000000000112040345600000000000000000000000000000000001120403456000000000000000000000000000000000011204034560000000000000000000010676768480000112040345600000000000000000000100256853700001120403456000000000000000000000000000000000011204034560000000000000000000000000000000000112040345600000000000000000000000000000000001120403456000000000000000000001044862127000011204034560000000000000000000000000000000000112040345600000000000000000000107009787300001120403456000000000000000000000000000000000011204034560000000000104229461000000000000000)
 (.leaf 11204034560000000000000000000010306709890000112040345600000000000000000000107718673200001120403456000000000000000000000000000000000011204034560000000000000000000010859625010000112040345600000000000000000000106328507200001120403456000000000000000000001052920606000011204034560000000000000000000010821078530000112040345600000000000000000000106269986600001120403456000000000000000000001064393948000011204034560000000000000000000010716789860000112040345600000000000000000000107082773800001120403456000000000000000000001075884368000011204034560000000000000000000010723163080785112040345600000000000000000000103217825500001120403456104547167800000000001022487294000011204034560000000000000000000000000000000000))))
 (.node 4 (.node 2 (.node 1 (.leaf 11204034560000000000000000000000000000000000112040345600000000000000000000000000000000001120403456000000000000000000001043634171000011204034560000000000000000000000000000000000112040345600000000000000000000000000000000001120403456000000000010250073670000000000000011204034560000000000106568204910627696820000112040345600000000001074071077105958921500001120403456000000000010792611091042218467000011204034560000000000108837554110469731000000112040345600000000001082907846000000000000001120403456000000000010681701110000000000000011204034560000000000107404716910384543620000112040345610168378021066082186102841725000001120403456000000000000000000000000000000000011204034560000000000103527502300000000000000)
 (.leaf 11204034560000000000000000000000000000000000112040345600000000000000000000000000000000001120403456000000000000000000000000000000000011204034560000000000103344966200000000000000112040345600000000000000000000000000000007861120403456000000000000000000000000000000078711204034560000000000000000000000000000000000112040345600000000001038442562104433076800001120403456000000000010879124900000000000000011204034561087599268109975694200000000000000112040345600000000001059051694000000000000001120403456000000000000000000000000000000000011204034561088626297110511390700000000000000112040345610763647151109779310000000000000001120403456000000000000000000000000000000000011204034560000000000000000000000000000000000))
 (.node 1 (.leaf 11204034560000000000000000000000000000000000112040345600000000000000000000000000000000001120403456000000000010384828270000000000000011204034560000000000104458302300000000000000112040345600000000001093847640104200103600001120403456000000000000000000000000000000000011204034560000000000109500505800000000000000111280128000000000000000000000000000000000001103626240000000000000000000001064376249000011185684480000000000000000000010543920750000112040345600000000000000000000105331517500001110441984109816447800000000001039488834000011204034560000000000110066883610265543300000112001024000000000001080014825103050411000001116733440000000000000000000001060324826000011128012800000000000104193222210661965270000)
 (.leaf 10779361280000000000000000000000000000000000110048051200000000000000000000103739351200001114112000000000000000000000001041074899000010779361280000000000000000000000000000000000110519910400000000001083015640105886032000001117913088000000000011009034551068375309000011175198720000000000110174839810745887040000112040345600000000001093126115107331694807881120403456000000000000000000001064894885000011204034560000000000000000000010426016430000112040345600000000000000000000104272040600001120403456000000000000000000001053221276000011204034560000000000000000000010721866440789112040345600000000000000000000106689909207901120403456103494847100000000000000000000000011204034561038160033000000000010709966590791)))
 (.node 2 (.node 1 (.leaf 11204034560000000000000000000010617103320792112040345600000000000000000000105883211500001120403456000000000010356508331057501272000011204034561043050592110793130010675702880000112040345600000000001107712514108004918300001120403456000000000011078976671069045957000011204034560000000000110800336310557726120000112040345610619360491107951642000000000000001120403456000000000011076150491082481610000011204034560000000000110811123510934850710000112040345600000000001108004648106074685607931120403456000000000011061355351094258633079411204034560000000000110742641010844290390795112040345600000000001113083137108358243107961120403456000000000011144474921090531886079711204034560000000000111504486610791308330000)
 (.leaf 11204034561049832144111696454610642781120000112040345610337803751116970366106542958200001109131264000000000011033171721060400603000011091312640000000000110501764810667264650000110677196800000000001104737783000000000000001120403456000000000011069552071091670583000011204034560000000000110313697410851193510798112040345600000000001079921712108986508600001120403456000000000000000000001096675860000011204034561066724930105549156810937843700000112040345610504289431069635600109674165107991120403456108383752010996964391095413534080011204034561089035672110032076110952995250000112040345610844427331097365507109429915400001120403456110465782610929122051094729366000011204034561101929964109397850210880680000000))
 (.node 1 (.leaf 11204034561074520169109953978210938057130801112040345611056150641085599121109492510008021120403456110284552710761942341085139094080311204034561060492286109850038110848420360000112040345610555100231077371575108391904100001120403456000000000010636889161084028727000011204034561066415860102876546310839289110000112040345600000000001093407133108939582908041120403456000000000011048339901075137582000011204034560000000000110504926210777249540000112040345600000000001049505458107289010800001120403456106561472210752601621056846508000010089817700000000000000000000000000000000000100898177000000000000000000000000000000000001096810496000000000000000000000000000000000011204034560000000000000000000000000000000000)
 (.leaf 11204034560000000000000000000000000000000000111607808000000000000000000000000000000000001096810496000000000000000000000000000000000011104419840000000000000000000010124243530000112040345600000000000000000000105798974408051120403456000000000000000000000000000000080611204034560000000000000000000010406949210000112040345600000000000000000000103484458408071118175232000000000010359326900000000000000011175198720000000000000000000010314569880000110205337600000000000000000000105739028900001116078080000000000000000000001064818213000011204034560000000000000000000000000000000000112040345600000000000000000000103537063500001120403456000000000000000000000000000000000011204034560000000000000000000000000000000000))))))
 (.node 16 (.node 8 (.node 4 (.node 2 (.node 1 (.leaf 11204034560000000000000000000010488166770000112040345600000000000000000000106666987200001120403456000000000000000000001072054819000011204034560000000000000000000010743910040000112040345600000000000000000000107585839300001120403456000000000000000000000000000000000011204034560000000000000000000000000000000000112040345600000000000000000000000000000000001120403456000000000000000000001028658158000011204034560000000000000000000010179096910000112040345610550783461102390231104131539300001120403456000000000000000000001075752395000011204034560000000000000000000010786632000000112040345600000000000000000000000000000000001120403456106640039100000000000000000000000011204034560000000000000000000000000000000000)
 (.leaf 11204034560000000000000000000000000000000000112040345600000000000000000000000000000000001120403456000000000000000000000000000000000011204034560000000000000000000000000000000000112040345600000000000000000000105521482000001120403456000000000000000000001053852548000011204034560000000000000000000000000000000000112040345600000000000000000000104574988600001120403456000000000000000000001043435341000011204034560000000000000000000000000000000000112040345600000000000000000000000000000000001120403456000000000000000000000000000000000011204034560000000000000000000000000000000000112040345600000000000000000000000000000000001120403456000000000000000000001028104869000011204034560000000000000000000000000000000000))
 (.node 1 (.leaf 11204034560000000000000000000000000000000000112040345600000000000000000000000000000000001120403456000000000000000000000000000000000011204034560000000000000000000000000000000000112040345600000000000000000000000000000000001120403456000000000000000000001048766142000011204034560000000000000000000010326237290000112040345600000000000000000000000000000000001120403456000000000000000000001071225902000011204034560000000000000000000010731031280000112040345600000000000000000000107466990400001120403456000000000000000000001066275526000011204034560000000000000000000010795357440000112040345600000000000000000000105532714400001120403456000000000000000000001073123096000011204034560000000000000000000010746150460000)
 (.leaf 11204034560000000000000000000010724336710000112040345600000000000000000000107445741800001120403456000000000000000000001059425354000011204034560000000000000000000010610920200000112040345600000000000000000000107714838600001120403456000000000000000000001080002661000011204034560000000000000000000010765003630000112040345600000000000000000000106235286800001120403456000000000000000000001077855762000011204034560000000000000000000010827070470000112040345600000000000000000000106852308008081120403456000000000000000000001053449781000011204034560000000000000000000010762260410809112040345600000000000000000000107914397708101120403456000000000000000000001075279867000011204034560000000000000000000010624564410000)))
 (.node 2 (.node 1 (.leaf 11204034560000000000000000000010646571330000112040345610655203420000000000000000000000001120403456000000000000000000000000000000000011204034560000000000000000000000000000000000112040345600000000000000000000000000000000001120403456000000000000000000000000000000000011204034560000000000000000000010325468130000112040345600000000001038455983103380784900001120403456000000000000000000000000000000000011204034560000000000105724143210406516070000112040345600000000001033449662105541761500001120403456099073567500000000000000000000000011204034560000000000102503421100000000000000112040345600000000000000000000000000000008111120403456000000000000000000000000000000081211204034560000000000000000000000000000000000)
 (.leaf 11204034560000000000000000000000000000000000112040345600000000000000000000104850020600001120403456000000000000000000001065736659081311204034560000000000000000000010387146080000112040345600000000001094478253000000000000001120403456000000000010922113371040768950000011204034561073394586109306592600000000000000112040345600000000001051367729000000000000001120403456000000000000000000000000000000000011204034560000000000000000000000000000000000112040345600000000000000000000000000000000001120403456000000000010453145090000000000000011204034560000000000103350334900000000000000112040345600000000000000000000000000000000001120403456000000000000000000000000000000000011204034561061610236109977356200000000000000))
 (.node 1 (.leaf 11204034561049925626110949289200000000000000112040345610505865141102835299000000000000001120403456000000000011017253290000000000000011204034560000000000000000000000000000000000112040345600000000000000000000000000000000001120403456000000000010251415850000000000000011204034560000000000104916991300000000000000112040345600000000000000000000000000000000001120403456000000000000000000000000000000000011204034560000000000000000000000000000000000112040345600000000000000000000000000000000001120403456000000000000000000001057679844000011200102400000000000000000000010497746160000110519910400000000000000000000102544356700001099431936000000000000000000000000000000000010639117680000000000000000000000000000000000)
 (.leaf 10994319360000000000000000000000000000000000110755840000000000000000000000000000000000001096810496000000000000000000000000000000000010912148650000000000000000000000000000000000107793612800000000000000000000102254627000001108344832000000000000000000001047525881000010651066410000000000000000000000000000000000109681049600000000000000000000104150442100001109131264000000000010870763551058741352000011204034560000000000000000000010848449540000112040345600000000000000000000106086907600001120403456000000000000000000001064603887000011204034560000000000000000000010692058610814112040345600000000000000000000108083352208151120403456000000000000000000001078625921081611204034560000000000000000000010847379350817))))
 (.node 4 (.node 2 (.node 1 (.leaf 11204034560000000000000000000010496973460000112040345600000000000000000000000000000008181120403456000000000000000000001055556869000011204034560000000000000000000010457952130000112040345600000000001060991140105115754308191120403456105489322611080100481036640170000011204034560000000000110755777110847779770000112040345600000000001107986743000000000000001120403456000000000011078454211060094607000011204034560000000000110767122710769292080000112040345600000000001107850979106985075600001120403456000000000011078742571074031661000011204034560000000000110776709310757034410000112040345600000000001107897693107255466700001120403456000000000011076585911071650719000011204034560000000000110790592410706672330000)
 (.leaf 11204034560000000000110802936810516296690000112040345600000000001108010022105703128100001120403456000000000011022300611065046258082011204034560000000000110715050410907536320821112040345600000000001115403321107694475008221120403456000000000011066009451092984474000011204034560000000000110748675610853457820000112040345600000000001103024934108554118808231120403456000000000011037381231086000375000011204034560000000000110830503910811779710000112040345600000000001109832158108751839900001120403456000000000011158226601078427517000011204034560000000000111663365510825708570000112040345600000000001115757596107992681608241120403456000000000011170208151063548398000011204034561057180799106151291110838337230000))
 (.node 1 (.leaf 11204034561085783425107571650210821466650000112040345610710272031088711714107617067900001120403456000000000010857012531075999837000011204034560000000000109849880810814633310000112040345600000000001092512173107743179000001120403456000000000010994284761087503379000011204034561054354342107166983810853576910825112040345610509847051060845178108352469408261120403456000000000010417711611084061595082711204034560000000000107915415410880541330828112040345610368251041071040692109922173800001120403456000000000010512771321081389007000011204034560000000000105561572010686443680000112040345600000000001032778573108187256500001120403456000000000010768078601083309274000011051991040000000000102230959110344408240000)
 (.leaf 11204034560000000000000000000010411235360000112040345600000000000000000000000000000000001064102844000000000000000000000000000000000010936647680000000000000000000010017112940000112040345600000000001046361407103394885608291120403456000000000000000000000000000000000011204034560000000000000000000010345673170830112040345600000000000000000000103828273908311120403456101677767300000000000000000000000011204034560000000000000000000010563919310000112040345600000000000000000000000000000000001120403456000000000000000000001016627229000011204034560000000000000000000010349894030000112040345600000000000000000000000000000000001120403456000000000000000000001069085426000011204034560000000000000000000010711510110000)))
 (.node 2 (.node 1 (.leaf 11204034560000000000000000000010552942170000112040345600000000000000000000105030734200001120403456000000000000000000000000000000000011204034560000000000000000000000000000000000112040345600000000000000000000102718781100001120403456109826403100000000000000000000000011204034560000000000000000000000000000000000112040345600000000000000000000000000000000001120403456000000000000000000000000000000000011204034560000000000000000000000000000000000112040345600000000000000000000000000000000001120403456000000000000000000001032808622000011204034560000000000000000000010330558720000112040345600000000000000000000104674934900001120403456000000000000000000001035550929000011204034560000000000000000000000000000000000)
 (.leaf 11204034560000000000000000000000000000000000112040345600000000000000000000000000000000001120403456000000000000000000001019209983000011204034560000000000000000000010243336170000112040345600000000000000000000000000000000001120403456000000000000000000000000000000000011204034560000000000000000000000000000000000112040345600000000000000000000000000000000001120403456000000000000000000000000000000000011204034560000000000000000000000000000000000112040345600000000000000000000000000000000001120403456000000000000000000000000000000000011204034560000000000000000000000000000000000112040345600000000000000000000000000000000001120403456000000000000000000001079390719083211204034560000000000000000000010709621860000))
 (.node 1 (.leaf 11204034560000000000000000000010568926430000112040345600000000000000000000000000000000001120403456000000000000000000000000000000000011204034560000000000000000000010659808720000112040345600000000000000000000000000000000001120403456000000000000000000001043549270000011204034560000000000000000000010758435950000112040345600000000000000000000107723464100001120403456000000000000000000001050965544000011204034560000000000000000000010572282970000112040345600000000000000000000107509678200001120403456000000000000000000001060571664000011204034560000000000000000000010667958430000112040345600000000000000000000107383472800001120403456000000000000000000001075420015000011204034560000000000000000000000000000000000)
 (.leaf 11204034560000000000000000000010543110600000112040345600000000000000000000106669274800001120403456106019318200000000000000000000000011204034560000000000000000000010239298460000112040345600000000000000000000000000000000001120403456000000000000000000000000000000000011204034560000000000000000000000000000000000112040345600000000000000000000102462183100001120403456101676049310487471281041021597000011204034560000000000102508789809837740030000112040345600000000001060883766105818096900001120403456000000000010516663631051873781000011204034560000000000103342281910347200340000112040345600000000000000000000103215733500001120403456000000000000000000000000000000000011204034560000000000000000000000000000000000)))))
 (.node 8 (.node 4 (.node 2 (.node 1 (.leaf 11204034561066715392103699301000000000000833112040345600000000000000000000000000000008341120403456000000000000000000000000000000083511204034560000000000000000000000000000000000112040345600000000000000000000104620595800001120403456000000000000000000001040714373000011204034561058036756105323335510883504810000112040345600000000001051636164107268110500001120403456000000000010835718050000000000000011204034560000000000107261020100000000000000112040345600000000001068154172000000000000001120403456000000000010708628540000000000000011204034560000000000103016132800000000000000112040345600000000001035248180000000000000001120403456000000000000000000000000000000000011204034561057716512108615130200000000000000)
 (.leaf 11204034560000000000110395339600000000000000112040345610499381761109172473000000000000001120403456000000000011022054200000000000000011204034560000000000000000000000000000000000112040345600000000001079600008000000000000001120403456000000000010538910220000000000000011204034561060476146000000000000000000000000112040345600000000000000000000000000000000001120403456000000000000000000000000000000000011204034560000000000108315573000000000000000111411200000000000001088482076103221054100001120403456000000000000000000000000000000000011204034560000000000000000000000000000000000112040345600000000000000000000000000000000001120403456000000000000000000000000000000000010758902300000000000000000000000000000000000))
 (.node 1 (.leaf 10905190400000000000000000000000000000000000108632473600000000000000000000105155584800001099431936000000000000000000000000000000000010994319360000000000000000000000000000000000110755840000000000000000000000000000000000001066760489000000000000000000000000000000000009681749040000000000000000000000000000000000110048051200000000001090854270104980867400001115684864000000000011024301291075029778000011200102400000000000109575363610485590980000112040345600000000000000000000000000000000001120403456000000000000000000001026231638000011204034560000000000000000000010702237630000112040345600000000000000000000106998065400001120403456000000000000000000001077499616000011204034560000000000000000000000000000000836)
 (.leaf 11204034560000000000000000000000000000000837112040345600000000000000000000105163368808381120403456000000000010671131461055706086083911204034560000000000110382583610310192080000112040345600000000001108056343000000000000001120403456000000000011080318321050631387000011204034560000000000110782350610653282490000112040345600000000001107632901106467436700001120403456000000000011078715051031209366000011204034560000000000110796034510623536490000112040345600000000001107808695105716007600001120403456000000000011079178781048716226084011204034560000000000110796873410621877530000112040345600000000001107772572000000000000001120403456000000000011079085461067164558000011204034560000000000103876468410741712040000)))
 (.node 2 (.node 1 (.leaf 11204034560000000000104547557010688168840000112040345600000000001104784549106768890808411120403456000000000011157236091071174804084211204034560000000000105998786210925500030843112040345600000000000000000000109980550600001120403456000000000011044223191091417989000011204034560000000000110258773010904018670000112040345600000000001106442348109417774400001120403456000000000011127384181084049126084411204034560000000000111686971610742365330000112040345610638458331116563295108276815800001120403456000000000011170794181049762700000011204034560000000000111697959310663318500000112040345600000000001117110403000000000000001116078080000000000011117372900989635823000010779361280000000000105865742900000000000000)
 (.leaf 11020533760000000000109269892500000000000000112040345600000000001101490081108189183508451120403456000000000010791910641092148364084611204034561043565451108307666710908450310847112040345610685253601061553177109464469300001120403456106006453400000000001096130581000011204034560000000000000000000010881989330000112040345600000000001021504284105931185400001120403456000000000010628383111079815289000011204034560000000000108693186210870844340000112040345610489458371064031171108865505608481120403456000000000010346173561078416008084911204034560000000000105474666010907438450000112040345600000000001045515836108288886808501120403456000000000010503342521081777617000011204034560000000000103107400810876551260000))
 (.node 1 (.leaf 11204034560000000000000000000010772929920000112040345600000000001045589656108374368200001120403456000000000010321880151076742223000011204034560000000000000000000010819063150000112040345600000000000000000000108166707700001120403456000000000010960758641076135026000011193548800000000000108379599010685415310000111122841600000000001077487337106060085100001099431936000000000010861225711059300214000010779361280000000000106091060900000000000000110677196800000000001077165215106104469400001118175232000000000010844500921052546573000011204034560000000000106622311510383123520000111817523200000000000000000000000000000008511112014848000000000000000000000000000000000011075584000000000000000000000000000000000000)
 (.leaf 11160780800000000000000000000010626960710000111791308800000000000000000000101772525900001119617024000000000000000000001028694554085211204034560000000000000000000010425841680853112040345600000000000000000000104689428800001120403456000000000000000000001046296989000011051991040000000000000000000010400738870854112040345600000000000000000000000000000000001120403456000000000000000000000000000000000011204034560000000000000000000010400207180855112040345600000000000000000000104189074408561120403456000000000000000000001063949779000011204034560000000000000000000000000000000000112040345600000000000000000000000000000000001120403456000000000000000000001050764757000011204034560000000000000000000010435141010000))))
 (.node 4 (.node 2 (.node 1 (.leaf 11204034560000000000000000000010657853170000112040345600000000001100614153102597523700001120403456000000000000000000000000000000000011204034561108249171000000000000000000000000112040345610740062040000000000000000000000001120403456105900993500000000001023884087000011204034561060107819000000000010320559900000112040345600000000000000000000103249793000001120403456000000000000000000000000000000000011204034560000000000000000000000000000000000112040345600000000000000000000000000000000001120403456000000000000000000000000000000000011204034560000000000000000000010351980430000112040345600000000000000000000102392533000001120403456000000000000000000000000000000000011204034560000000000000000000000000000000000)
 (.leaf 11204034560000000000000000000010344887560000112040345600000000000000000000000000000008571120403456000000000000000000001044003502000011204034560000000000000000000000000000000000112040345600000000000000000000000000000000001120403456000000000000000000001042229237000011204034560000000000000000000000000000000000112040345600000000000000000000102660063300001120403456000000000000000000001043563074000011204034560000000000000000000010706824760000112040345600000000000000000000105460516800001120403456000000000000000000001072174120000011204034560000000000000000000010608854630000112040345600000000000000000000000000000000001120403456000000000000000000000000000000000011204034560000000000000000000010443665670000))
 (.node 1 (.leaf 11204034560000000000000000000010485343540000112040345600000000000000000000106738123400001120403456000000000000000000001077755251000011204034560000000000000000000010701922740000112040345600000000000000000000000000000000001120403456000000000000000000001065801546000011204034560000000000000000000010702935320000112040345600000000000000000000108309760800001120403456000000000000000000000000000000000011204034560000000000000000000000000000000000112040345600000000001036053486103164795800001120403456000000000010816661231049985808000011204034560000000000106698060610351919140000112040345600000000000000000000104208445700001120403456000000000010167798201062020767000011204034560000000000102954392600000000000000)
 (.leaf 11204034560000000000104902227400000000000000112040345600000000001040623600103765531800001120403456000000000000000000001043492370000011204034560000000000105143483810452606040000112040345600000000001074769428104084184300001120403456000000000010718803921019498476000011204034560000000000101683350710540825580858112040345600000000001038429140104661974608591120403456099392254100000000000000000000086011204034560000000000000000000010274646860861112040345600000000000000000000000000000000001120403456000000000000000000000000000000000011204034560000000000000000000000000000000000112040345600000000001025061054000000000000001120403456103220975910167798200000000000000011204034560000000000105685723400000000000000)))
 (.node 2 (.node 1 (.leaf 11204034560000000000099220455400000000000000112040345600000000000000000000000000000000001120403456000000000000000000000000000000000011204034560000000000107605456300000000000000112040345600000000001086878594000000000000001120403456000000000010934368080000000000000011204034560000000000000000000000000000000000112040345600000000000000000000000000000000001120403456000000000000000000000000000000000011204034560000000000000000000000000000000000112040345610885308600000000000000000000000001120403456000000000000000000000000000000000011204034560000000000000000000000000000000000111961702410782328201046723795107129584108621103626240000000000000000000000000000000000011204034560000000000107345493400000000000000)
 (.leaf 11204034560000000000000000000010502576470000111896166400000000000000000000105720620300001099431936000000000000000000000000000000000010905190400000000000000000000000000000000000109051904000000000000000000000103660646200001066227729000000000000000000001001929285000011067719680000000000109357595410420599890000112040345600000000000000000000106351213500001120403456000000000000000000001026309837000011204034560000000000000000000000000000000000112040345600000000000000000000105663308308631120403456000000000000000000001078071824086411204034560000000000000000000010412981960000112040345600000000000000000000104520753700001120403456000000000000000000001066093151000011204034560000000000000000000010802597270000))
 (.node 1 (.leaf 11204034560000000000000000000010558136140865112040345600000000000000000000104700247208661120403456000000000000000000000000000000000011204034560000000000000000000010280546240000112040345600000000001058989618000000000000001120403456099482877911079962331058259875000011204034560000000000110801552710383244450000112040345600000000001108040955000000000000001120403456000000000011080445981035584465000011204034560000000000110788513610576687230000112040345610569173971107904509105815151700001120403456103981198511079458751049435681000011204034560000000000110785249910622152900000112040345610539463871107792128106890269600001120403456000000000011080155530000000000086711204034560000000000110801665410570164060000)
 (.leaf 11204034560000000000110804048300000000000000112040345600000000001108007898105396961500001120403456000000000011080256450000000000000011204034560000000000110806858500000000000000112040345600000000000000000000105043430800001120403456000000000011043905471068167791086811204034560000000000110524702410768820900000112040345600000000001107484318106213472700001120403456000000000011021772651093247662086911204034560000000000110555666810941763850870112040345600000000001103730049108731219408711120403456000000000011057058281097333597087211204034560000000000110385823710974104380873112040345600000000001104032511109068248908741120403456000000000011066988821092600827000011204034561045257131111661994510826851130000)))))))
 (.node 32 (.node 16 (.node 8 (.node 4 (.node 2 (.node 1 (.leaf 11204034560000000000111663741710828052440000111634022410657818651111681794103385643700001120403456000000000011170591670000000000000011204034560000000000000000000010888839700000112040345600000000001041542991108303599000001120403456000000000000000000001077855212000011204034560000000000107016156610804564220000112040345600000000000000000000106870903100001120403456000000000000000000001075057523000011204034560000000000000000000010840138100000112040345600000000000000000000108357153700001120403456000000000000000000001091472023000010936647680000000000107314036110477656300000111044198400000000001098435265108520562700001118961664000000000010998160291078019892000011120148480000000000109406847010690849130000)
 (.leaf 10779361280000000000000000000000000000000000111961702400000000000000000000103375931508751120403456000000000000000000001019334641000011204034560000000000000000000000000000000000112040345600000000000000000000102458286800001120403456000000000000000000001042515809000011204034560000000000000000000010653195380876111122841600000000000000000000102888950700001089249718000000000000000000000000000000000011067719680000000000000000000010229461350000111489843200000000000000000000102081494300001120403456000000000000000000001035560302000011204034560000000000000000000000000000000877112040345600000000000000000000103417670208781120403456000000000000000000001029142704087911204034560000000000000000000010699380150880))
 (.node 1 (.leaf 11204034560000000000000000000010660167210881112040345600000000000000000000105220606500001120403456000000000000000000001038350696000011204034560000000000000000000010629747250000112040345600000000000000000000000000000000001120403456000000000000000000001039178007088211204034560000000000000000000010263672690000112040345600000000000000000000101049079708831120403456000000000000000000001036937403000011204034560000000000000000000010300662380000112040345600000000000000000000000000000000001120403456000000000010865724100000000000000011204034560000000000000000000010407057360000112040345600000000000000000000106420461400001120403456000000000000000000000000000000000011204034560000000000000000000010294358470000)
 (.leaf 11204034560000000000000000000010687857940000112040345600000000000000000000000000000000001120403456000000000000000000000000000000000011204034560000000000000000000010415523960000112040345600000000000000000000103778431500001120403456000000000000000000000000000000000011204034560000000000000000000010273367870000112040345600000000000000000000104133061608841120403456000000000000000000001052536566000011204034560000000000000000000010452963840000112040345600000000000000000000105366977200001120403456000000000000000000001042815506000011204034560000000000000000000010413046240000112040345600000000000000000000104610684300001120403456000000000000000000000000000000000011204034560000000000000000000000000000000000)))
 (.node 2 (.node 1 (.leaf 11204034560000000000000000000000000000000000112040345600000000000000000000105800908800001120403456000000000000000000001074584814000011204034560000000000000000000010738274130000112040345600000000000000000000105650314600001120403456000000000000000000000000000000000011204034560000000000000000000010357462990000112040345600000000000000000000000000000000001120403456000000000000000000001077078597000011204034560000000000000000000010520974030000112040345600000000000000000000102589091300001120403456000000000000000000001067159742000011204034560000000000000000000000000000000000112040345600000000000000000000107197822400001120403456000000000000000000001048794611000011204034560000000000000000000010424772480000)
 (.leaf 11204034560000000000000000000000000000000000112040345600000000000000000000000000000000001120403456000000000000000000000000000000000011204034560000000000000000000000000000000000112040345600000000001053179668000000000000001120403456000000000010687665410000000000000011204034560000000000107254309210589954350000112040345609813372131068496427106810842700001120403456000000000000000000000000000000000011204034560000000000101688719400000000000000112040345600000000000000000000000000000000001120403456000000000000000000000000000000000011204034560000000000000000000010749079110000112040345600000000000000000000000000000000001120403456101640723200000000000000000000088511204034560000000000000000000010321664170886))
 (.node 1 (.leaf 11204034560000000000000000000000000000000000112040345600000000000000000000000000000000001120403456000000000000000000000000000000000011204034560000000000000000000000000000000000112040345600000000000000000000000000000000001120403456104021101410252489591017034690088711204034560000000000000000000010429755100000112040345600000000000000000000101424618500001120403456000000000010320269541021731969000011204034561032281834104056320210355880590000112040345600000000001073563147104280301400001120403456000000000010766891611042501232000011204034560000000000000000000000000000000000112040345600000000000000000000000000000000001120403456000000000000000000000000000000000011204034560000000000000000000000000000000000)
 (.leaf 11204034560000000000108250330600000000000000112040345600000000001071711781000000000000001120403456000000000010251952720000000000000011204034561016774452104252949100000000000000112040345600000000001030215015000000000000001120403456000000000000000000000000000000000011204034560000000000000000000000000000000000112040345600000000000000000000000000000000001120403456102162776500000000000000000000000011204034561069788609000000000010260407120000112040345600000000001077009606000000000000001120403456109155042000000000000000000000000011204034560000000000000000000000000000000000112040345600000000000000000000000000000000001120403456000000000010392747110000000000000011204034560000000000000000000000000000000000))))
 (.node 4 (.node 2 (.node 1 (.leaf 11204034560000000000000000000000000000000000112040345600000000000000000000000000000000001120403456105295512200000000000000000000000011099176960000000000000000000000000000000000111607808000000000000000000000000000000000001119617024000000000000000000000000000000000011171266560000000000103021501510384997660000111358771200000000000000000000108210788400001058664106000000000000000000000000000000000011083448320000000000000000000010369643740000111568486400000000000000000000106057874900001116733440000000000000000000001052718281000011204034560000000000000000000010485782880000112040345600000000000000000000000000000000001120403456000000000000000000000000000000000011204034560000000000000000000000000000000888)
 (.leaf 11204034560000000000000000000010198203150889112040345600000000000000000000106281073508901120403456000000000000000000001028502705089111204034560000000000103024185810265013170892112040345600000000001100968467105728396300001120403456000000000011077913671055941041089311204034560000000000109290276810737609180000112040345600000000000000000000108366103000001120403456000000000000000000001061219454000011204034560000000000109525650610524846520000112040345600000000000000000000106840444700001120403456000000000009825274561050968362000011204034560000000000110394249110790347360000112040345600000000001066710493109269883400001120403456000000000011028602031095325913000011204034560000000000110561853410985150370894))
 (.node 1 (.leaf 11204034560000000000110647721310867527100895112040345600000000001107239161108655388000001120403456000000000011062791901076649661089611204034560000000000110479991110979279080897112040345610608959631116696399107358260600001120403456000000000011167501391079585574000011204034560000000000111708421510488120370000112040345610513630981117065943103143099300001120403456000000000011170517481057754928000011204034560000000000000000000010942591390898112040345610244903600995211031107892097908991120403456000000000000000000001085612841000011204034560000000000000000000010821396260000112040345600000000000000000000108475445400001120403456000000000000000000001090732902000011204034560000000000104542188310787776930000)
 (.leaf 11204034560000000000000000000010822465690000112040345600000000000000000000108454714000001120403456000000000000000000001082388851000011204034560000000000103591926810849250020000112040345600000000000000000000107444355200001120403456000000000000000000001095170509000011204034560000000000000000000010879678200900112040345600000000000000000000109235891400001114898432000000000010588335901083734469000010779361280000000000101586714010406449090000110913126400000000001097172045107512050100001120403456000000000011027217911075491969000011181752320000000000106767853810690259780000109366476800000000001029892892104503321000001109131264000000000000000000001043497481090111204034560000000000000000000010395434770902)))
 (.node 2 (.node 1 (.leaf 11204034560000000000000000000010454728640000111751987200000000000000000000102394810200001116733440000000000000000000001050595498000011185684480000000000000000000010264821290000111122841600000000000000000000000000000000001112014848000000000000000000000000000000000011112284160000000000000000000010181609080000110362624000000000000000000000102214033100001117519872000000000000000000000000000000000011204034560000000000000000000010213747820000112040345600000000000000000000102486133000001120403456000000000000000000000000000000000011204034560000000000000000000010280658410903112040345610464384480000000000103447840400001120403456000000000000000000001033896827090411204034560000000000000000000010389332320905)
 (.leaf 11204034560000000000000000000000000000000000112040345600000000000000000000101899537500001120403456000000000000000000000000000000000011204034560000000000000000000000000000000000112040345600000000000000000000102060331209061120403456000000000000000000001032088435090711204034560000000000000000000010400786870908112040345600000000000000000000102791245109091120403456000000000000000000001047290453091011204034560000000000000000000010512739060000112040345600000000000000000000102682000309111120403456000000000000000000001011168964091211204034560000000000000000000000000000000913112040345600000000000000000000000000000009141120403456000000000000000000000000000000000011204034560000000000000000000010653629940000))
 (.node 1 (.leaf 11204034560000000000000000000000000000000000112040345600000000000000000000000000000000001120403456000000000000000000001033860651000011204034560000000000000000000000000000000000112040345600000000000000000000000000000000001120403456000000000000000000001021376536091511204034560000000000000000000010252859190916112040345600000000000000000000103371219100001120403456000000000000000000000000000000000011204034560000000000000000000010371595300000112040345600000000000000000000102157628600001120403456000000000000000000000000000000000011204034560000000000000000000010628458520000112040345600000000000000000000101267474300001120403456000000000000000000001031571830000011204034560000000000000000000010160701440000)
 (.leaf 11204034560000000000000000000010217574080000112040345600000000000000000000103629452700001120403456000000000000000000001045591254000011204034560000000000000000000010330879220000112040345600000000000000000000000000000000001120403456000000000000000000000000000000000011204034560000000000000000000000000000000000112040345600000000000000000000000000000000001120403456000000000000000000001029354731000011204034560000000000000000000010392476870000112040345600000000000000000000000000000000001120403456000000000000000000001036372448091711204034560000000000000000000010509770570000112040345600000000000000000000105396036000001120403456000000000000000000001059374279000011204034560000000000000000000010277621020000)))))
 (.node 8 (.node 4 (.node 2 (.node 1 (.leaf 11204034560000000000000000000010236346250000112040345600000000000000000000000000000000001120403456000000000000000000001040515885000011204034560000000000000000000000000000000000112040345600000000000000000000000000000000001120403456000000000000000000001067160479000011204034560000000000000000000000000000000000112040345600000000000000000000000000000000001120403456000000000000000000001078792211000011204034560000000000000000000010358074360000112040345600000000000000000000103246474100001120403456000000000000000000000000000000000011204034560000000000000000000000000000000000112040345600000000000000000000102371760600001120403456000000000000000000001028251372000011204034560000000000000000000010242387210000)
 (.leaf 11204034560000000000000000000010662416410000112040345600000000000000000000105329554800001120403456000000000000000000001055538643091811204034560000000000000000000010633891910000112040345600000000000000000000105272395600001120403456000000000000000000001073265042000011204034560000000000000000000010649810430000112040345600000000000000000000106129569300001120403456000000000000000000000000000000000011204034561045174319000000000010403544490000112040345600000000000000000000106175700000001120403456000000000000000000001040456843000011204034561060342650000000000000000000000000112040345600000000001033422819000000000000001120403456000000000000000000000000000000000011204034560000000000000000000000000000000000))
 (.node 1 (.leaf 11204034560000000000000000000000000000000000112040345600000000000000000000000000000000001120403456107942605810889822471040420621000011204034560000000000107079993910569811660000112040345600000000000000000000000000000000001120403456000000000000000000000000000000000011204034560000000000000000000000000000000000112040345610921421491012310370000000000009191120403456109002370910407913721000229493092011204034561098198891103605348610245607650921112040345600000000000000000000102645900300001120403456000000000010168871940000000000000011204034560000000000000000000000000000000000112040345600000000000000000000102711714100001120403456000000000010350736971051991772000011204034560000000000000000000010659313350000)
 (.leaf 11204034560000000000000000000000000000000000112040345600000000000000000000000000000009221120403456000000000000000000000000000000000011204034560000000000000000000000000000000000112040345600000000000000000000000000000000001120403456000000000000000000000000000000000011204034560000000000107731117700000000000000112040345600000000001065369993000000000000001120403456000000000010422744780000000000000011204034560000000000000000000010497788320000112040345600000000001025061054000000000000001120403456000000000010335167710000000000000011204034560000000000105439098300000000000000112040345610578073110000000000000000000000001120403456000000000010580735820000000000000011204034560000000000103026870200000000000000)))
 (.node 2 (.node 1 (.leaf 11204034560000000000000000000000000000000000112040345600000000000000000000000000000000001120403456000000000000000000000000000000000011204034560000000000000000000000000000000000112040345600000000000000000000000000000000001120403456109953037500000000000000000000092311204034561062580009000000000000000000000000112040345600000000000000000000000000000000001120403456000000000010168871940000000000000011204034560000000000000000000000000000000000112040345600000000000000000000000000000000001120403456106092956700000000000000000000000011204034560000000000000000000000000000000000111935488000000000000000000000000000000000001077936128000000000000000000000000000000000011179130880000000000000000000000000000000000)
 (.leaf 11204034560000000000000000000000000000000000112040345600000000000000000000000000000000001100480512000000000010526025320000000000000011099176960000000000105074026110524147650000107793612800000000000000000000000000000000001067903017000000000000000000000000000000000011120148480000000000000000000010432448630000111791308800000000000000000000107007652209241120010240000000000000000000001058659625000011135877120000000000000000000010684838760925112040345600000000000000000000105272734009261120010240000000000000000000001039357752000011204034560000000000000000000010643469160000112040345600000000000000000000104118645009271120403456000000000000000000001075240136092811204034560000000000000000000010413602960929))
 (.node 1 (.leaf 11204034560000000000000000000010607329600000112040345600000000000000000000105526265700001120403456000000000000000000001048289508000011204034560000000000105770616110370302230000112040345600000000001108059750000000000009301120403456000000000011080224211050900980000011204034560000000000110799337600000000000000112040345600000000001107670860106053028900001120403456000000000011077517841044794037093111204034560000000000110799452910579366950000112040345600000000001108045018104307825100001120403456000000000011079883691059790880000011204034560000000000110758112810657157410000112040345600000000001099665454106688563809321120403456000000000010539379981040561617000011204034560000000000108812073710869484590933)
 (.leaf 11204034560000000000107519640910427226810000112040345600000000001089710378109337193709341120403456000000000010934699431095494183093511204034560000000000110111930410763377580936112040345600000000001079326540106890088309371120403456000000000010655855801080020496093811204034560000000000109756966510882470710939112040345600000000001117063165105599701100001120403456000000000011168830061073628964000011204034560000000000111672520910803109790000112040345610555534761116867474107178579100001120403456000000000011162940471089260234000011204034560000000000110628642510823904820940112040345600000000001105729474108346619300001120403456000000000010996696481090530604000011204034560000000000000000000010852650880941))))
 (.node 4 (.node 2 (.node 1 (.leaf 11204034560000000000000000000010913679240000112040345600000000001021450597108702800709421120403456000000000000000000001090798126094311204034560000000000000000000010769528230000112040345600000000000000000000107499084000001120403456000000000000000000001083968384000011120148481048928858000000000010789737770000112040345610775682831105964355108728568709441119354880107458245910727209301060851797094511036262400000000000101629663600000000000000107658623300000000000000000000000000000000001090519040000000000000000000001018586803000011120148480000000000000000000010575876990946111280128000000000000000000000104974185500001112801280000000000000000000001063512938000011204034560000000000000000000000000000000000)
 (.leaf 11204034560000000000000000000000000000000000112040345600000000000000000000104031224700001120403456000000000000000000001032456634094711204034560000000000000000000000000000000000112040345600000000000000000000103193108000001120403456000000000000000000001032432499094811204034560000000000000000000000000000000000112040345600000000000000000000102889454500001120403456000000000000000000001018834780000011204034560000000000000000000010340633250000112040345600000000000000000000103375311909491120403456000000000000000000001041803252095011204034560000000000000000000010296840850951112040345600000000000000000000000000000000001120403456000000000000000000000000000000000011204034560000000000000000000010380309950952))
 (.node 1 (.leaf 11204034560000000000000000000010347349760000112040345600000000000000000000102824661000001120403456000000000000000000001018414962000011204034560000000000000000000000000000000000112040345600000000000000000000104656047300001120403456000000000000000000001048410686000011204034560000000000000000000010345557720000112040345600000000000000000000103860745600001120403456106140775200000000001032485798000011204034561078557195105613916900000000000953112040345610868125841019034678107096533409541120403456000000000000000000001040919409000011204034560000000000000000000010336725620000112040345600000000000000000000103487484200001120403456000000000000000000001030529476000011204034560000000000000000000000000000000000)
 (.leaf 11204034560000000000000000000010372155500000112040345600000000000000000000000000000000001120403456000000000000000000000000000000000011204034560000000000000000000010409948560000112040345600000000000000000000000000000009551120403456000000000000000000001050508635000011204034560000000000000000000010385935210956112040345600000000000000000000000000000000001120403456000000000000000000000000000000000011204034560000000000000000000010606540640000112040345600000000000000000000000000000000001120403456000000000000000000001032653025000011204034560000000000000000000000000000000000112040345600000000000000000000000000000000001120403456000000000000000000000000000000000011204034560000000000000000000010529942120000)))
 (.node 2 (.node 1 (.leaf 11204034560000000000000000000010839880200000112040345600000000000000000000103732303100001120403456000000000000000000001061937623000011204034560000000000000000000010509956800000112040345600000000000000000000104415723500001120403456000000000000000000001032030741000011204034560000000000000000000010608164700000112040345600000000000000000000105167891500001120403456000000000000000000001042744996000011204034560000000000000000000000000000000000112040345600000000000000000000000000000000001120403456000000000010598670661052751411000011204034560000000000104295898800000000000000112040345600000000000000000000000000000000001120403456000000000010250342111057384836000011204034560000000000000000000010849509860000)
 (.leaf 11204034560000000000000000000010507674850000112040345600000000000000000000000000000000001120403456000000000000000000001037642548000011204034560000000000000000000000000000000000112040345600000000000000000000000000000000001120403456000000000000000000000000000000000011204034560000000000000000000000000000000000112040345600000000000000000000000000000000001120403456000000000000000000000000000000000011204034561024636121000000000000000000000000112040345600000000000000000000000000000000001120403456000000000000000000000000000000000011204034560000000000000000000000000000000000112040345600000000000000000000000000000000001120403456000000000000000000000000000000000011204034560000000000104436156310404824830000))
 (.node 1 (.leaf 11204034560000000000106965153910609891970000112040345600000000000000000000105577230800001120403456000000000010183367460000000000000011204034560000000000000000000000000000000000112040345600000000000000000000000000000000001120403456000000000000000000000000000000000011204034560000000000000000000000000000000000112040345600000000000000000000000000000000001120403456000000000000000000000000000000000011204034561002077073000000000000000000000000112040345600000000000000000000000000000009571120403456000000000000000000000000000000000011204034560000000000000000000000000000000000112040345610250352841043113338000000000000001120403456103250517200000000000000000000000011204034561084272763000000000000000000000000)
 (.leaf 11204034560000000000000000000000000000000000112001024000000000000000000000000000000000001086324736000000000000000000001059443982000011167334400000000000000000000000000000000000112040345600000000000000000000000000000000001120403456000000000000000000000000000000000011051991040000000000103465762210321986550000111044198400000000000000000000102614738500001077936128000000000000000000000000000000000010905190400000000000000000000000000000000000111411200000000000000000000000105217841300001119617024000000000000000000001056305881000011204034560000000000000000000010606573770958111935488000000000000000000000105162240609591115684864000000000000000000001077674921096011193548800000000000000000000010521212970961))))))
 (.node 16 (.node 8 (.node 4 (.node 2 (.node 1 (.leaf 11204034560000000000000000000010453463760000112040345600000000000000000000103538498809621120403456000000000000000000001052839882000011204034560000000000000000000010541153450000112040345600000000000000000000105052534509631120403456000000000000000000001017198759000011204034560000000000000000000010566287080964112040345600000000000000000000103855944800001120403456000000000000000000001029724556000011204034560000000000110496946600000000000000112040345600000000001108035371105105512300001120403456000000000011079854061056811280096511204034560000000000110802341710413874410966112040345600000000001108056159104232252700001120403456000000000011079964691055756927096711204034560000000000110796281000000000000000)
 (.leaf 11204034560000000000110797798810413137830000112040345600000000001108032881103936015100001120403456000000000011080254621033067131000011204034560000000000110807175700000000000000112040345600000000001111403738000000000000001120403456000000000011167620271032358045000011204034560000000000110451632410869929780968112040345600000000001103873809109278908809691120403456000000000011043791181097852271097011204034560000000000110570776810886032910971112040345600000000001106497503109079127509721120403456000000000010945726251097583511097311204034560000000000106897625610883815140000112040345600000000000000000000108311921409741120403456000000000010926982961084931934097511204034560000000000110341353610879764700976))
 (.node 1 (.leaf 11204034560000000000110779291410772868430000112040345600000000001116668900107479539200001120403456000000000011169005041072391708000011204034560000000000111680140110772470750000112040345600000000001116646854108238951800001120403456000000000011168933091073681762000011204034560000000000111607880110834737230000112040345600000000000000000000107701306900001120403456000000000000000000001091471991097711204034560000000000104030147710849381550978112040345600000000000000000000107788599209791077936128000000000000000000001017170376000011067719680000000000000000000010563212810000111280128000000000000000000000105072084100001114112000000000000000000000001056302922000011067719680000000000000000000010274212790000)
 (.leaf 10707598420000000000000000000000000000000000111634022400000000001103389524108564816000001120403456101684317111010213681069719893098011193548800000000000000000000010763563730000107951310300000000000000000000103818871300001090519040000000000000000000000000000000000010936647680000000000000000000000000000000000104586003700000000000000000000000000000000001103626240000000000000000000000000000000000010968104960000000000000000000000000000000000111673344010386292580000000000000000000000001119617024000000000000000000000000000000000011204034560000000000000000000000000000000000112040345600000000000000000000103937287700001120403456000000000000000000000000000000000011204034560000000000000000000010249480560000)))
 (.node 2 (.node 1 (.leaf 11204034560000000000000000000000000000000981112040345600000000000000000000101977255600001120403456000000000000000000000000000000000011204034560000000000000000000000000000000000112040345600000000000000000000103240853700001120403456000000000000000000001048375577000011204034560000000000000000000010399558230000112040345600000000000000000000104885665809821120403456000000000000000000001023562766098311204034560000000000000000000010208524410984112040345600000000000000000000000000000009851120403456000000000000000000000000000000098611204034560000000000000000000000000000000987112040345600000000000000000000103520331009881120403456000000000000000000000000000000098911204034560000000000000000000000000000000000)
 (.leaf 11204034560000000000000000000000000000000000112040345600000000000000000000000000000000001120403456000000000000000000001053269811000011204034560000000000000000000000000000000000112040345600000000000000000000102610484100001120403456000000000000000000001053120744000011204034560000000000000000000010545218680000112040345600000000000000000000105769582300001120403456000000000000000000001061653370000011204034560000000000000000000010588782090000112040345600000000000000000000104317968200001120403456000000000000000000001048871736000011204034561090560962104579098210283162330990112040345600000000000000000000000000000000001120403456000000000000000000001023669680000011204034560000000000000000000010409774500000))
 (.node 1 (.leaf 11204034560000000000000000000000000000000000112040345600000000000000000000102348208000001120403456000000000000000000000000000000000011204034560000000000000000000000000000000000112040345610406895010000000000000000000000001120403456000000000000000000000000000000000011204034560000000000000000000000000000000000112040345600000000000000000000000000000000001120403456000000000000000000000000000000000011204034560000000000000000000000000000000000112040345600000000000000000000000000000000001120403456000000000000000000000000000000000011204034560000000000000000000010603045720000112040345600000000000000000000102149523200001120403456000000000000000000001050134954000011204034560000000000000000000000000000000000)
 (.leaf 11204034560000000000000000000000000000000000112040345600000000000000000000104270933700001120403456000000000000000000001074126740000011204034560000000000000000000010635917670000112040345600000000000000000000106064225500001120403456000000000000000000001078861738000011204034560000000000000000000010375583400000112040345600000000000000000000103373765400001120403456000000000000000000000000000000000011204034560000000000000000000000000000000000112040345600000000000000000000000000000000001120403456000000000000000000001063623390000011204034560000000000000000000010153989850000112040345600000000000000000000105571979000001120403456000000000000000000000000000000000011204034560000000000000000000000000000000000))))
 (.node 4 (.node 2 (.node 1 (.leaf 11204034560000000000000000000000000000000000112040345600000000000000000000000000000000001120403456000000000000000000001044467825000011204034560000000000107846586910527132830000112040345600000000001055105692000000000000001120403456000000000010313692871050305006000011204034560000000000000000000010326567900000112040345600000000000000000000105126445200001120403456000000000000000000001022119474000011204034560000000000000000000010452777510000112040345610797980720000000000103913030700001120403456107332375310371272280000000000099111204034560000000000000000000000000000000000112040345600000000000000000000101773128000001120403456000000000000000000001024888354000011204034560000000000000000000000000000000000)
 (.leaf 11204034560000000000097843381500000000000000112040345600000000001016404011000000000000001120403456000000000000000000000000000000000011204034560000000000000000000010335790430000112040345610495673320000000000000000000000001120403456109362866000000000000000000000000011204034561047325762000000000010327849750000112040345610540044700000000000000000000000001120403456000000000000000000001048553841000011204034560000000000000000000010319005980000112040345600000000000000000000101362099600001120403456000000000000000000000000000000000011204034561035212075000000000000000000000000112040345600000000001055340573100955085900001120403456107823587810298928921054967283000011204034560000000000000000000010607558360000))
 (.node 1 (.leaf 11204034560000000000000000000010416378680000112040345600000000000000000000102220460600001120403456000000000010565015570000000000000011204034560000000000104927057700000000000000112040345600000000000000000000000000000000001120403456000000000000000000000000000000000011204034560000000000000000000000000000000000112040345600000000000000000000000000000000001120403456103501853300000000001036449523000011204034561066868165000000000000000000000000112040345600000000000000000000000000000000001120403456000000000000000000000000000000000011204034560000000000000000000000000000000000112040345600000000000000000000000000000000001120403456111659932200000000000000000000000011204034561093523109104258988910766576780000)
 (.leaf 11204034560000000000000000000000000000000000112040345600000000000000000000000000000000001120403456000000000000000000000000000000000011196170240000000000000000000010337037090000111607808000000000000000000000000000000000001120403456108749490910089817701050214009000011204034560000000000000000000000000000000000109681049600000000000000000000000000000000001086324736000000000000000000001049007370000009998326310000000000000000000000000000000000100898177000000000000000000000000000000000001008981770000000000000000000000000000000000010777431480000000000000000000000000000000000110205337600000000000000000000105499143800001116340224000000000000000000001076599129000011204034560000000000000000000010856335620992)))
 (.node 2 (.node 1 (.leaf 11156848640000000000000000000010462597080993110362624000000000000000000000104297961600001120403456099369061300000000001016828006000011204034561030348159000000000010461577090000112040345600000000000000000000000000000000001120403456000000000010915830301041047100000011204034560000000000110792938610614593900994112040345600000000001107040141000000000000001120403456000000000011071062541060395070000011204034560000000000110404740110651879470000112040345600000000001107526392104446839400001120403456000000000011080211631053188694000011204034560000000000110415671510679716760000112040345600000000001105347530107899962400001120403456000000000011077898991070206825099511204034560000000000110775330410747974360000)
 (.leaf 11204034560000000000110800244610581245080000112040345600000000001107902648106993522700001120403456000000000010989663160000000000000011204034560000000000110760891500000000000000112040345600000000001112694456107939632800001120403456000000000011046238031097695834099611204034560000000000110514678010936424520997112040345600000000001084692313109998562100001120403456000000000000000000001091623097000011204034560000000000000000000010823753330000112040345600000000000000000000109205760100001120403456000000000000000000001084010289000011204034560000000000108044725810836176070000112040345600000000001100006975108872734409981120403456000000000000000000001083864960000011204034560000000000000000000010830473890999))
 (.node 1 (.leaf 11204034561063896199000000000010747766171000112040345600000000001101562275106920756600001120403456000000000011028349321058387959000011204034560000000000110236233910877861380000112040345600000000001109833679107707429800001120403456000000000011169369161070147686000011204034560000000000111585205910615026390000112040345600000000001110723579106840130500001120403456106241113011079785641041871607000011204034560000000000110296165310826178011001112040345600000000001091849264108590656310021120403456000000000000000000001085616503100311204034560000000000000000000010935239210000112040345600000000000000000000109771733400001120403456000000000000000000001074598020000011204034560000000000000000000010853955511004)
 (.leaf 11204034560000000000000000000010882306381005112040345600000000001044925278107709198010061096810496000000000000000000000000000000000010905190400000000000000000000000000000000000110677196800000000000000000000000000000000001110441984000000000000000000001033659823000011120148480000000000000000000010310192640000110519910400000000000000000000102452652300001064007264000000000000000000000000000000000010863247360000000000000000000000000000000000111044198400000000000000000000100123318700001116340224000000000000000000001042405858000011163402240000000000000000000010537513460000110362624000000000000000000000104111062200001120403456000000000010914303571080699736100711200102400000000000109562487110823384510000)))))
 (.node 8 (.node 4 (.node 2 (.node 1 (.leaf 11193548801025047095000000000010903122350000111751987210256572491025034211109099268300001114898432000000000000000000001085973588000010778528710000000000000000000000000000000000108632473600000000000000000000000000000000001109131264000000000000000000000000000000000011181752320000000000000000000000000000000000111607808000000000000000000000000000000000001120403456000000000000000000000000000000000011204034560000000000000000000010509476590000112040345600000000000000000000104742820000001120403456000000000000000000001019471240000011204034560000000000000000000000000000000000112040345600000000000000000000000000000000001120403456000000000000000000000000000000000011204034560000000000000000000000000000001008)
 (.leaf 11204034560000000000000000000000000000001009112040345600000000000000000000000000000000001120403456000000000000000000001018234739000011204034560000000000000000000010273638361010112040345600000000000000000000105188366500001120403456110220775710628416671073423620000011204034560000000000000000000010586742860000112040345600000000000000000000102424949410111120403456000000000000000000001013025728101211204034560000000000000000000010198865770000112040345600000000000000000000000000000010131120403456000000000010504751811023428347101411204034560000000000000000000000000000000000112040345600000000000000000000000000000000001120403456000000000000000000000000000000101511204034560000000000000000000000000000001016))
 (.node 1 (.leaf 11204034560000000000000000000000000000000000112040345600000000000000000000102883544400001120403456000000000000000000001029314149000011204034560000000000000000000010639148880000112040345600000000000000000000103734677300001120403456000000000000000000001057189494000011204034560000000000000000000010437956020000112040345600000000000000000000105569227600001120403456105875465309934930441024903862101711204034560000000000000000000010283618330000112040345600000000000000000000000000000000001120403456000000000000000000000000000000000011204034560000000000000000000000000000000000112040345600000000000000000000000000000000001120403456000000000000000000000000000000000011204034560000000000000000000010539675440000)
 (.leaf 11204034560000000000000000000000000000001018112040345600000000000000000000000000000000001120403456000000000000000000000000000000000011204034560000000000000000000000000000000000112040345600000000000000000000107266988200001120403456000000000000000000000000000000000011204034560000000000000000000000000000000000112040345600000000000000000000000000000000001120403456000000000000000000000000000000000011204034560000000000000000000000000000000000112040345600000000000000000000104174790200001120403456000000000000000000001058001831000011204034560000000000000000000010611441430000112040345600000000000000000000108298378300001120403456000000000000000000001083078333101911204034560000000000000000000010471661660000)))
 (.node 2 (.node 1 (.leaf 11204034560000000000000000000000000000000000112040345600000000000000000000105786617200001120403456000000000000000000000000000000000011204034560000000000000000000000000000000000112040345600000000000000000000000000000000001120403456000000000000000000001031649043000011204034560000000000000000000010699775260000112040345600000000000000000000000000000000001120403456000000000000000000001037822442000011204034560000000000000000000010248745960000112040345600000000000000000000102351304700001120403456000000000000000000001033739510000011204034560000000000000000000000000000000000112040345600000000000000000000103573214600001120403456000000000000000000000000000000000011204034560000000000000000000000000000000000)
 (.leaf 11204034560000000000000000000000000000000000112040345600000000000000000000000000000000001120403456000000000000000000000000000000000011204034560000000000000000000000000000000000112040345600000000000000000000105020421900001120403456000000000000000000001032637452000011204034560000000000000000000000000000000000112040345610431028691083330003105933575400001120403456103604207710722612351055116402000011204034560000000000104759621110436604060000112040345600000000000000000000104530593900001120403456000000000000000000000000000000000011204034560000000000000000000010793731400000112040345600000000000000000000000000000000001120403456000000000000000000000000000000000011204034560000000000000000000010397882110000))
 (.node 1 (.leaf 11204034560000000000000000000010512114570000112040345600000000000000000000106254758400001120403456000000000000000000001048969244000011204034561037305201104145575010699595541020112040345600000000000000000000105085237900001120403456000000000010302150150000000000000011204034560000000000000000000000000000000000112040345600000000000000000000000000000000001120403456000000000000000000000000000000000011204034560000000000000000000000000000000000112040345600000000000000000000000000000000001120403456108215831610293291781067006871000011204034560000000000000000000010663796550000112040345600000000000000000000000000000000001120403456000000000000000000000000000000000011204034560000000000000000000010403803950000)
 (.leaf 11204034560000000000000000000000000000000000112040345600000000000000000000000000000000001120403456109927807600000000000000000000000011204034560000000000000000000000000000000000112040345600000000000000000000000000000000001120403456111012139300000000000000000000000011204034560000000000000000000000000000000000111817523200000000000000000000104764546000001120010240000000000000000000000000000000000011075584000000000000101688719410562381250000110048051200000000001052817280106619939500001008981770000000000000000000000000000000000010089817700000000000000000000000000000000000107642936600000000000000000000000000000000001086324736000000000000000000001046743708000011167334400000000000000000000010600661440000))))
 (.node 4 (.node 2 (.node 1 (.leaf 11200102400000000000000000000010769294150000110048051200000000000000000000104546918400001120403456105220836810880049741058925521102111204034561063260879106794613510195606151022112040345610303677550000000000000000000010231120403456000000000010604660131026944456000011204034560000000000105690756509830065100000112040345600000000001088556525104319455310241120403456000000000010198399841049094051000011204034561050312408000000000010825271000000112040345610468595571064447246101688385200001120403456000000000010961505221051254535000011204034560000000000110651265510727296211025112040345600000000001102449947106278667610261120403456000000000011043701001052253417000011204034560000000000110139901210574662690000)
 (.leaf 11204034560000000000110804386410445781210000112040345600000000001108010284105157788210271120403456000000000010665670480000000000000011204034560000000000000000000000000000000000112040345600000000001107715817106586967400001120403456000000000011079353371063752874000011204034560000000000110805411410495408340000112040345610618774301107875804105693055910281120403456000000000011080739060000000000000011204034560000000000110796988710584541771029112040345600000000001107887889107181977700001120403456000000000011079781711062925617000011204034560000000000110801628710542123550000112040345600000000001087318996103152963500001120403456000000000010922634511049499833000011204034560000000000110705927810343215791030))
 (.node 1 (.leaf 11204034560000000000000000000010992786770000112040345600000000000000000000109194869610311120403456000000000000000000001078871806103211204034560000000000109038062810740966221033112040345600000000000000000000107675003700001120403456000000000011016541311080888944103411204034560000000000110003062010821522871035112040345600000000001114504141106669251300001120403456000000000011170660481035525535103611204034560000000000110722296110800476890000112040345600000000001107922020107100693900001120403456000000000000000000001082163042103711204034560000000000000000000010789188631038112040345600000000000000000000108154936010391120403456000000000000000000001073809704000011204034560000000000000000000010656351500000)
 (.leaf 11204034561048491107000000000010705415531040112040345600000000000000000000108298712600001120403456000000000000000000001082819504000011204034560000000000105295149810738030190000111280128000000000000000000000107028345700001120403456000000000000000000000000000000104111204034560000000000000000000010414160120000112040345600000000000000000000102552911100001120403456000000000000000000001030949924000010863247360000000000000000000000000000000000110362624000000000000000000000104783841800001120403456000000000010587530591070255595104211204034560000000000108215454910744375451043112040345600000000001103971431107314744910441099431936000000000000000000001043565684000010779361280000000000000000000010431178410000)))
 (.node 2 (.node 1 (.leaf 11036262400000000000000000000010115088800000110755840000000000000000000000103992210300001114112000000000000000000000001057125362000011004805120000000000000000000000000000000000112001024000000000000000000000000000000010451120403456000000000000000000001015579644000011204034560000000000000000000010240297450000112040345600000000000000000000000000000000001120403456000000000000000000000000000000000011204034560000000000000000000000000000000000112040345610518311150000000000102781117400001120403456000000000000000000000000000000000011204034560000000000000000000010247331640000112040345600000000000000000000100341114600001120403456000000000000000000000000000000000011204034560000000000000000000010283447121046)
 (.leaf 11204034561098286174105209921510628926830000112040345600000000000000000000103284546810471120403456000000000000000000000000000000000011204034560000000000000000000000000000001048112040345600000000000000000000000000000000001120403456000000000000000000000000000000000011204034560000000000000000000000000000000000112040345600000000000000000000000000000000001120403456000000000000000000001008830747000011204034560000000000000000000000000000000000112040345600000000000000000000103855580900001120403456000000000000000000000000000000000011204034560000000000000000000010279716530000112040345600000000000000000000104271145800001120403456000000000000000000001033092195000011204034560000000000000000000010591422370000))
 (.node 1 (.leaf 11204034560000000000000000000010343275140000112040345600000000000000000000101319934400001120403456000000000000000000001044021205000011204034560000000000000000000010218112630000112040345600000000000000000000105432969400001120403456000000000000000000000000000000000011204034560000000000000000000000000000000000112040345610591375760000000000104533061210491120403456106641240400000000001069464730000011204034560000000000000000000010549815100000112040345600000000000000000000000000000000001120403456000000000000000000001048453290000011204034560000000000000000000000000000000000112040345600000000000000000000000000000010501120403456000000000000000000000000000000000011204034560000000000000000000000000000000000)
 (.leaf 11204034560000000000000000000010694859231051112040345600000000000000000000000000000000001120403456000000000000000000000000000000000011204034560000000000000000000000000000000000112040345600000000000000000000000000000000001120403456000000000000000000000000000000000011204034560000000000000000000010766459330000112040345600000000000000000000108377961210521120403456000000000000000000000000000000000011204034560000000000000000000000000000000000112040345600000000000000000000000000000000001120403456000000000000000000000000000000000011204034560000000000000000000010772724070000112040345600000000000000000000000000000000001120403456000000000000000000001018302727000011204034560000000000000000000000000000000000)))))))))
 (.node 128 (.node 64 (.node 32 (.node 16 (.node 8 (.node 4 (.node 2 (.node 1 (.leaf 11204034560000000000000000000000000000000000112040345600000000000000000000000000000000001120403456000000000000000000000000000000000011204034560000000000000000000000000000000000112040345600000000000000000000000000000000001120403456000000000000000000000000000000000011204034560000000000000000000000000000000000112040345600000000000000000000102817037400001120403456000000000000000000000000000000000011204034560000000000000000000000000000000000112040345600000000000000000000000000000000001120403456000000000000000000001041790861000011204034560000000000000000000000000000000000112040345600000000000000000000000000000000001120403456000000000010621135360000000000105311204034560000000000000000000000000000001054)
 (.leaf 11204034560000000000107273435210746213770000112040345610319950101085560744103981402400001120403456107709148310773736721079297758000011204034560000000000000000000000000000000000112040345600000000000000000000101713689500001120403456000000000000000000001042693601000011204034560000000000000000000010289112140000112040345600000000000000000000104969991800001120403456000000000000000000001031870650000011204034560000000000105559558700000000000000112040345600000000000000000000103033233700001120403456000000000000000000001035088266000011204034561097541202000000000000000000000000112040345610532121150000000000000000000000001120403456000000000000000000000000000000000011204034561101961610000000000000000000000000))
 (.node 1 (.leaf 11204034561034450658104083834810205036640000112040345600000000000000000000106924794800001120403456000000000000000000001056384394000011204034560000000000000000000000000000000000112040345610726405760000000000000000000000001120403456107085649500000000000000000000000011204034560000000000000000000000000000000000112040345600000000000000000000104195539810551120403456000000000000000000000000000000000011204034560000000000000000000000000000000000112040345600000000000000000000000000000000001120403456000000000000000000000000000000000011204034561016126985000000000000000000001056112040345600000000000000000000000000000000001120403456000000000010566760400000000000000011204034560000000000108975987110308853580000)
 (.leaf 11204034560000000000000000000000000000000000112040345600000000000000000000000000000000001099431936000000000000000000001046734962000011204034560000000000000000000010592136540000111712665600000000000000000000000000000000001105199104000000000000000000001068910467000011141120000000000000000000000010348277361057111489843200000000000000000000106532596210581114898432000000000010980593501046840637000011204034561021461871107547449110153991940000112040345600000000001067116501000000000010591120403456000000000000000000001054575112000011204034560000000000109578593210665331761060112040345600000000001096335806102425276210611120403456000000000011001432901029630614106211204034561059704210108734835610352770650000)))
 (.node 2 (.node 1 (.leaf 11204034560000000000104912293700000000000000112040345600000000000000000000000000000000001120403456000000000011059224121067352290000011204034560000000000110779957210757843680000112040345600000000001107806598107591955300001120403456000000000011080026821061540130000011204034560000000000110807070810247099880000112040345600000000001092805145000000000000001120403456000000000011161470110000000000000011204034560000000000109739402910925639341063112040345600000000001092714968109304565710641120403456000000000000000000001050878737106511204034560000000000000000000010782456830000112040345600000000000000000000106826852810661120403456000000000000000000001088218700106711204034560000000000108693731410881359020000)
 (.leaf 11204034560000000000110269159210790763110000112040345600000000001111985540107424572110681120403456000000000011144153011073228232106911204034560000000000111078741110756976310000112040345600000000001107659535108194076200001120403456000000000011022664471091970580107011204034560000000000104638825110779217391071112040345600000000001107516169108400123600001120403456000000000010809648351090581078107211204034560000000000107349771610789442230000112040345600000000000000000000108640248910731120403456000000000000000000001085856369107411204034560000000000000000000010848059061075112040345600000000000000000000106443297400001120403456000000000000000000001068595210000011204034560000000000108301668810781087441076))
 (.node 1 (.leaf 11075584000000000000000000000010521775930000111634022400000000000000000000107080053500001120403456000000000000000000001068662349107711204034560000000000000000000010679876821078112040345600000000000000000000105571040900001119617024000000000000000000000000000000000011128012800000000000000000000010340706980000109051904000000000000000000000000000000000001090519040000000000000000000000000000000000011200102400000000000109055857110737187180000112040345610505930911104571374108974390910791120403456102155904511059919851080346459108011204034560000000000110255506710853548891081112040345600000000001105110342107157725810821120403456000000000011070536161089983242000011204034560000000000110700952310912740800000)
 (.leaf 11204034560000000000109829171410875006670000110677196800000000001025114741106311502900001086324736000000000009801518020000000000000011036262400000000000000000000010363884780000112040345600000000000000000000000000000010831120403456000000000000000000001025034525108411204034560000000000000000000010259681920000112040345600000000000000000000105525571800001120403456000000000000000000001052349981000011204034560000000000000000000010511067820000112040345600000000000000000000000000000000001120403456000000000000000000000000000000000011204034560000000000000000000010244883690000112040345600000000000000000000000000000000001120403456000000000000000000000000000000000011204034560000000000000000000010343605021085))))
 (.node 4 (.node 2 (.node 1 (.leaf 11204034560000000000000000000000000000000000112040345600000000000000000000000000000000001120403456000000000000000000001034626668108611204034560000000000000000000000000000000000112040345600000000000000000000000000000000001120403456000000000000000000000000000000000011204034560000000000000000000010174900350000112040345600000000000000000000106893990800001120403456000000000000000000000000000000108711204034560000000000000000000000000000000000112040345600000000000000000000000000000000001120403456000000000000000000001031593134000011204034560000000000000000000000000000000000112040345600000000000000000000105029226300001120403456000000000000000000001002008595000011204034560000000000000000000010249640020000)
 (.leaf 11204034560000000000000000000010498371700000112040345600000000000000000000104376816600001120403456107565244700000000001054872099000011204034560000000000000000000010610551960000112040345600000000000000000000105910896600001120403456000000000000000000001065622106000011204034560000000000000000000010511382850000112040345600000000000000000000101138335900001120403456000000000000000000000000000000000011204034560000000000000000000000000000000000112040345600000000000000000000104368585800001120403456000000000000000000000000000000108811204034560000000000000000000010534407920000112040345610711676030000000000107865571300001120403456000000000000000000001080804836000011204034560000000000000000000010434093020000))
 (.node 1 (.leaf 11204034560000000000000000000000000000000000112040345600000000000000000000000000000000001120403456000000000000000000000000000000000011204034560000000000000000000010322281350000112040345600000000000000000000105799182800001120403456000000000000000000000000000000000011204034560000000000000000000000000000000000112040345600000000000000000000103985641400001120403456000000000000000000001070083532000011204034560000000000000000000000000000000000112040345600000000000000000000000000000000001120403456000000000000000000000000000000000011204034560000000000000000000000000000000000112040345600000000000000000000102290898000001120403456000000000000000000000000000000000011204034560000000000000000000000000000000000)
 (.leaf 11204034560000000000000000000000000000000000112040345600000000000000000000000000000000001120403456000000000000000000000000000000000011204034560000000000000000000000000000000000112040345600000000000000000000000000000000001120403456000000000000000000000000000000000011204034560000000000000000000000000000000000112040345600000000000000000000000000000000001120403456000000000000000000000000000000000011204034560000000000000000000000000000000000112040345610470567220000000000105862922400001120403456000000000000000000000000000000000011204034560000000000105716425700000000000000112040345610828929881052864256108139166500001120403456000000000010511496251064505687000011204034561046403351106467541610730761900000)))
 (.node 2 (.node 1 (.leaf 11204034560000000000000000000010613041740000112040345600000000000000000000000000000000001120403456107471581310592161101082545533000011204034560000000000000000000010514276420000112040345600000000000000000000102102661600001120403456000000000000000000000000000000000011204034560000000000000000000000000000000000112040345600000000000000000000000000000000001120403456000000000000000000001046000944000011204034560000000000000000000010446477820000112040345600000000000000000000000000000000001120403456000000000000000000000000000000000011204034560000000000104628087700000000000000112040345600000000001035100540000000000000001120403456000000000000000000000000000000000011204034560000000000000000000000000000000000)
 (.leaf 11204034560000000000000000000000000000000000112040345600000000000000000000000000000000001120403456000000000000000000001033250724000011204034561052314702000000000000000000000000112040345600000000000000000000103264995600001120403456104559106500000000001040577235000011204034560000000000000000000010351969810000112040345600000000000000000000000000000000001120403456106230347000000000001043949900000011204034561100637409102503421100000000000000112040345610359627550000000000000000000000001120403456000000000000000000000000000000000011204034560000000000000000000000000000000000112040345600000000000000000000000000000000001120403456000000000000000000001043461654000011204034560000000000000000000010627218840000))
 (.node 1 (.leaf 11204034560000000000000000000000000000000000112040345600000000000000000000000000000000001120403456000000000000000000000000000000000011204034560000000000105729847500000000000000112040345610484725181106965588000000000000001120403456108474419211073422100000000000000011204034561082729486108595983200000000000000112040345610713125671109688084000000000000001120403456000000000010825246970000000000000011204034560000000000000000000000000000000000112040345600000000000000000000000000000000001120403456000000000000000000000000000000000011204034560000000000000000000000000000000000112040345600000000000000000000000000000000001116078080000000000000000000000000000000000010905190400000000000000000000010412882440000)
 (.leaf 11175198720000000000000000000010593677900000110519910400000000000000000000000000000000001077936128000000000010527870810000000000000010905190400000000000000000000000000000000000111896166400000000000000000000000000000000001120403456000000000000000000001042011696000011204034560000000000108751927400000000000000112040345600000000001107874257104696509800001120403456000000000010909097391045421168000011204034560000000000107461549810585082770000112040345600000000001096919233105536334810891120403456000000000010749241981067932689109011204034560000000000000000000010336588581091112040345600000000001066014238103571041010921120403456000000000010760705021057261889000011204034560000000000000000000010435443780000)))))
 (.node 8 (.node 4 (.node 2 (.node 1 (.leaf 11204034560000000000107552188710238888881093112040345600000000001095103100000000000000001120403456000000000000000000000000000000000011204034561066133759104044240600000000001094112040345600000000001107915309106791710700001120403456000000000011079640681064446468000011204034560000000000110805212210462317180000112040345600000000001108000873000000000000001120403456000000000011061902181062880295109511204034560000000000110139418910809576741096112040345600000000001105812364108215297600001120403456000000000011089053221052082371109711204034560000000000110763935010752518121098112040345600000000001108308342108298914310991120403456000000000011070056431082398645110011204034560000000000110012252810766256091101)
 (.leaf 11204034560000000000109269923910537574171102112040345600000000001073266190000000000011031120403456000000000000000000001033141249110411204034560000000000000000000010665470581105112040345600000000001091480374108652164700001120403456000000000011025385521082244165000011204034560000000000110122536810792149450000112040345600000000001094076334108746350500001120403456000000000000000000001084452449000011204034560000000000000000000010837338320000112040345600000000001105566735108245810311061120403456000000000010983035631084874464110711204034560000000000000000000010891342210000112040345600000000000000000000108236347100001120403456000000000000000000001088084129000011204034560000000000000000000010797797000000))
 (.node 1 (.leaf 11204034560000000000000000000010763244170000112040345600000000000000000000106906560711081111228416000000000010250610541058653373000011204034560000000000102503421110604024670000112040345600000000000000000000108455085211091120403456000000000000000000001057746556000011204034560000000000000000000010571935870000111358771200000000001077894604102263295700001107558400000000000010929156651076137818000010728031390000000000000000000000000000000000106962226200000000000000000000103902320100001113587712000000000010334228191048014214000011179130880000000000109756442210427770940000111607808000000000001103025983105010239200001117519872000000000011046825751063034503000011171266560000000000110267691210608561191110)
 (.leaf 11200102400000000000110597552210672298741111112001024000000000001107342918107735011300001115684864000000000010948725181057803064000011112284160000000000102989289210613027880000111489843200000000001030000266107282030611121100480512000000000010462271901051418250000011075584000000000000000000000010270117290000111044198400000000000000000000101761051500001119354880000000000000000000000986650141000011204034560000000000000000000010536116260000112040345600000000000000000000104195170400001120403456000000000000000000001030209538000011204034560000000000000000000010360387460000112040345600000000000000000000000000000011131120403456000000000000000000001007878569000011204034560000000000000000000010310403731114)))
 (.node 2 (.node 1 (.leaf 11204034560000000000000000000010195959060000112040345600000000000000000000104138571511151120403456000000000000000000001084815246000011204034560000000000000000000010580230071116112040345600000000000000000000106763782600001120403456000000000010251147411076043132111711204034560000000000103347650600000000000000112040345600000000000000000000102403390800001120403456000000000000000000000000000000000011204034560000000000000000000000000000000000112040345610997168731057501479104322979811181120403456000000000000000000000000000000000011204034560000000000000000000000000000001119112040345600000000000000000000000000000000001120403456000000000000000000000000000000000011204034560000000000000000000010244589350000)
 (.leaf 11204034560000000000000000000000000000000000112040345600000000000000000000000000000000001120403456000000000000000000000000000000112011204034560000000000000000000010573246381121112040345600000000000000000000105249446600001120403456000000000000000000001042395841000011204034560000000000000000000010414790191122112040345600000000000000000000097825498300001120403456000000000000000000000000000000000011204034560000000000000000000010546063760000112040345600000000000000000000105313959800001120403456000000000000000000001071760763112311204034560000000000000000000010467790431124112040345600000000000000000000103337821300001120403456000000000000000000000000000000000011204034560000000000000000000010571761600000))
 (.node 1 (.leaf 11204034560000000000000000000010340566060000112040345600000000000000000000103288084500001120403456000000000000000000001014429172000011204034560000000000000000000010428086060000112040345600000000000000000000106125868100001120403456000000000000000000000000000000000011204034561106564285105919597810664761610000112040345610668738111011451376103419763400001120403456000000000000000000000000000000000011204034560000000000000000000000000000000000112040345600000000000000000000000000000000001120403456000000000000000000000000000000000011204034560000000000000000000000000000000000112040345600000000000000000000000000000000001120403456000000000000000000001036587497000011204034560000000000000000000010447335540000)
 (.leaf 11204034560000000000000000000000000000000000112040345600000000000000000000103755141100001120403456000000000000000000000000000000000011204034560000000000000000000000000000000000112040345600000000000000000000000000000000001120403456000000000000000000000000000000000011204034560000000000000000000010290344390000112040345600000000000000000000000000000000001120403456000000000000000000000000000000000011204034560000000000000000000000000000000000112040345600000000000000000000000000000000001120403456000000000000000000000000000000000011204034560000000000000000000000000000000000112040345600000000000000000000000000000000001120403456000000000000000000001023166717000011204034560000000000000000000000000000000000))))
 (.node 4 (.node 2 (.node 1 (.leaf 11204034560000000000000000000000000000000000112040345600000000000000000000000000000000001120403456000000000000000000000000000000000011204034560000000000000000000000000000000000112040345600000000000000000000000000000000001120403456000000000000000000000000000000000011204034560000000000000000000000000000000000112040345600000000000000000000102500436200001120403456000000000000000000001060403531000011204034561067655637102171903300000000001125112040345600000000000000000000104816562500001120403456000000000000000000001060808298000011204034560000000000000000000010541504110000112040345600000000000000000000104356345700001120403456000000000000000000001054854917000011204034560000000000102506105410341508710000)
 (.leaf 11204034560000000000103128875710547711800000112040345600000000000000000000000000000000001120403456000000000000000000001043715907000011204034561087397641000000000000000000000000112040345600000000000000000000000000000000001120403456000000000000000000000000000000000011204034560000000000000000000000000000000000112040345610619365530000000000000000000000001120403456107059516500000000000000000000000011204034561061244409000000000010355179570000112040345600000000000000000000000000000000001120403456000000000010252221151038543376000011204034560000000000000000000010470780040000112040345600000000001050911388000000000000001120403456000000000010634523570000000000000011204034560000000000000000000000000000000000))
 (.node 1 (.leaf 11204034560000000000000000000010604803850000112040345600000000000000000000103185607900001120403456000000000010348589481029665172000011204034560000000000000000000000000000000000112040345600000000000000000000000000000000001120403456000000000000000000000000000000000011204034560000000000000000000000000000000000112040345600000000000000000000000000000000001120403456000000000000000000000000000000000011204034560000000000000000000000000000000000111896166400000000000000000000000000000000001093664768000000000000000000000000000000000011204034560000000000107685651410587160691126112040345600000000001099539467105019692411271120403456000000000010895348471047946912112811204034560000000000109356033010395030221129)
 (.leaf 11204034560000000000107656501010521845641130112040345600000000001089387417105096804400001120403456000000000010727209301024839082000011204034560000000000000000000000000000000000112040345600000000001096007601105947184911311120403456000000000010775846451038505168000011204034560000000000108386603510191566821132112040345600000000000000000000000000000000001120403456000000000010322282810000000000000011204034560000000000105777494800000000000000112040345600000000000000000000000000000000001120403456000000000010632527091023162726000011204034560000000000000000000000000000000000112040345600000000000000000000000000000000001120403456000000000000000000001045890493000011204034560000000000110784812210698056410000)))
 (.node 2 (.node 1 (.leaf 11204034560000000000110777327910776066550000112040345600000000001108007217101949948011331120403456000000000011076653551079123863113411204034560000000000110788573910791821071135112040345600000000001109349394105058327011361120403456000000000011031413781059403734113711204034560000000000109691975810559617361138112040345600000000001096780612107046850411391120403456000000000011025390241076702036114011204034560000000000108726614810823487350000112040345600000000001059474480108265786311411120403456000000000000000000001074611261114211204034560000000000000000000010739105350000112040345600000000000000000000107943202811431120403456000000000000000000001094865674000011204034560000000000108924690810899119351144)
 (.leaf 11204034560000000000106818940410760829101145112040345600000000000000000000108517461911461120403456000000000000000000001089006323114711204034560000000000000000000010903680341148112040345600000000000000000000107631124400001120403456000000000000000000001065955271000011179130880000000000000000000010600387410000112040345600000000001026913259106048021900001120403456000000000000000000001062967067000011204034560000000000000000000010704290460000112040345600000000000000000000105061674800001093664768000000000010830479361063743804000010550939480000000000000000000000000000000000107793612800000000000000000000000000000000001073870799000000000000000000000000000000000010684736100000000000000000000000000000000000))
 (.node 1 (.leaf 10779361280000000000104175773910371310770000110362624000000000001090830362105339656200001116340224000000000011018632171073830547000011036262400000000000108897889210538050660000109681049600000000001081549521000000000000001118175232000000000011027085791073224110000011200102400000000000110512706710859908200000110834483200000000001092089702106540198111491083037492000000000000000000000000000000000011204034561063421773000000000000000000000000112040345600000000000000000000104231081311501120403456000000000000000000001035899848115111204034560000000000000000000010401635260000112040345600000000000000000000108445417511521120403456000000000000000000001065411329115311204034560000000000105001213009995351450000)
 (.leaf 11204034560000000000106949299400000000001154112040345600000000001048112949000000000000001120403456000000000000000000000000000000000011204034560000000000000000000000000000000000112040345600000000000000000000103008469811551120403456107383517200000000001067559169000011204034560000000000000000000000000000000000112040345600000000000000000000104510583811561120403456000000000000000000001053894328000011204034560000000000000000000000000000001157112040345600000000000000000000000000000000001120403456000000000000000000000000000000000011204034560000000000000000000010245577680000112040345600000000000000000000103541664200001120403456000000000000000000001039596369000011204034561041220265000000000010096854171158))))))
 (.node 16 (.node 8 (.node 4 (.node 2 (.node 1 (.leaf 11204034560000000000000000000010180843380000112040345600000000000000000000000000000000001120403456000000000000000000001043376622000011179130880000000000000000000010540825760000112040345600000000000000000000102029604200001120403456000000000000000000001039871480000011204034561094388879102688641510320346780000112040345600000000000000000000000000000000001120403456000000000000000000000000000000000011204034560000000000000000000000000000000000112040345600000000000000000000106377788100001120403456000000000000000000001069580470000011204034560000000000000000000010439291880000112040345600000000000000000000000000000000001120403456000000000000000000000000000000000011204034560000000000000000000000000000000000)
 (.leaf 11204034560000000000000000000000000000000000112040345600000000000000000000000000000000001120403456000000000000000000000000000000000011204034560000000000000000000000000000000000112040345600000000000000000000000000000000001120403456000000000000000000000000000000000011204034560000000000000000000000000000000000112040345600000000000000000000000000000000001120403456000000000000000000001022744355000011204034560000000000000000000010216117640000112040345600000000000000000000000000000000001120403456000000000000000000000000000000000011204034560000000000000000000000000000000000112040345600000000000000000000106160467400001120403456000000000000000000000000000000000011204034560000000000000000000000000000000000))
 (.node 1 (.leaf 11204034560000000000000000000000000000000000112040345600000000000000000000000000000000001120403456000000000000000000000000000000000011204034560000000000000000000000000000000000112040345600000000000000000000000000000000001120403456000000000000000000000000000000000011204034560000000000103908680700000000000000112040345600000000000000000000000000000000001120403456000000000000000000000000000000000011204034560000000000000000000000000000000000112040345600000000000000000000103504546200001120403456109487152110245778701045428416000011204034561082073780000000000010595771040000112040345600000000000000000000000000000000001120403456000000000000000000000000000000000011204034560000000000000000000000000000000000)
 (.leaf 11204034560000000000000000000010434592020000112040345600000000000000000000105333466500001120403456000000000000000000001045441212000011204034560000000000000000000000000000000000112040345600000000001016833507105095306000001120403456000000000000000000000000000000000011204034560000000000000000000000000000000000112040345600000000000000000000102042195800001120403456000000000000000000000000000000000011204034560000000000000000000000000000000000112040345600000000000000000000000000000000001120403456000000000000000000000000000000000011204034560000000000000000000000000000000000112040345610802225440000000000000000000000001120403456000000000000000000001025347586000011204034560000000000000000000000000000000000)))
 (.node 2 (.node 1 (.leaf 11204034560000000000000000000000000000000000112040345600000000000000000000000000000000001120403456000000000000000000000000000000000011204034560000000000000000000010409516030000112040345600000000000000000000103760109200001120403456106975324210696356001044484883000011204034561047768680107783756210550204200000112040345600000000000000000000000000000000001120403456000000000000000000000000000000000011204034560000000000000000000010513041080000112040345600000000000000000000000000000000001120403456000000000000000000000000000000000011204034560000000000000000000000000000000000112040345600000000000000000000000000000000001120403456000000000000000000001026150565000011204034560000000000000000000000000000000000)
 (.leaf 11204034561056036962000000000000000000000000112040345600000000000000000000000000000000001120403456000000000000000000000000000000000011204034560994751470000000000000000000000000112040345600000000000000000000000000000000001120403456000000000000000000000000000000000011204034560000000000000000000000000000000000107805184900000000000000000000000000000000001120403456000000000000000000000000000000000011179130880000000000000000000010517024280000108632473600000000001059170812102900162700001120403456000000000010972353791049090239115911204034560000000000108787998410545815831160112040345600000000001084497278103534677700001120403456000000000010849133531031507260116111204034560000000000000000000010322462921162))
 (.node 1 (.leaf 11204034560000000000000000000000000000000000112040345600000000001053427971000000000000001120403456000000000010777989740000000000000011204034561035683716000000000000000000001163112040345600000000001060455947103558317111641120403456000000000010488612130000000000000011204034560000000000105964896310233421460000112040345600000000000000000000000000000000001120403456000000000010653431501016773252000011204034560000000000108738988000000000000000112040345600000000001068535015000000000000001120403456000000000010605297661031725282000011204034561053504207107374937410248629320000112040345600000000000000000000000000000000001120403456000000000000000000000000000000000011204034560000000000110788259310725103190000)
 (.leaf 11204034560000000000110803261810510271620000112040345600000000001104328052107363739011651120403456000000000011066387991088396236116611204034560000000000110796724010742820281167112040345600000000001108002367107805000211681120403456104517539311079538701088115439116911204034560000000000108286359600000000001170112040345600000000001061876977000000000011711120403456000000000011005702181050563149000011204034560000000000109696799210663737411172112040345600000000001099583088104563670311731120403456000000000010756644930000000000117411204034560000000000109120051010484717521175112040345600000000001099136500104625945711761120403456000000000011006922721051914978117711204034560000000000000000000010581741821178))))
 (.node 4 (.node 2 (.node 1 (.leaf 11204034560000000000000000000010763686861179112040345600000000000000000000107839915100001120403456000000000000000000001076300245000011204034560000000000000000000010775140551180112040345600000000001068750602108740552911811120403456000000000000000000001091790373000011204034560000000000000000000010762672640000112040345600000000000000000000108742232600001120403456000000000000000000001082524970000011204034560000000000000000000010841120830000112040345600000000000000000000104468566100001120403456000000000011016030131070960257000011204034560000000000110791082610755229560000112040345600000000000000000000106592417400001120403456000000000010934802191058877037000011104419840000000000000000000010691962070000)
 (.leaf 10905190400000000000000000000010618567940000104739656200000000000000000000103934002000001077936128000000000000000000000000000000000011163402240000000000000000000010289032921182110205337600000000000000000000100759202300001077936128000000000000000000000000000000000010994319360000000000108760840310510759320000109051904000000000001076722716000000000000001093664768000000000010825723020000000000000011051991040000000000109082564410438954010000111568486400000000001102343569106424349000001086324736000000000010725137320000000000000010905190400000000000000000000000000000000000111935488000000000000000000000105616385800001120403456000000000000000000000000000000000011204034560000000000000000000010067272631183))
 (.node 1 (.leaf 11204034560000000000000000000010196073651184112040345600000000000000000000099059029200001120403456108363067010129546151023159018000011204034560000000000000000000010458969510000112040345600000000000000000000104367727311851120403456000000000000000000001057740058118611204034560000000000000000000010194714821187112040345600000000001064306318106405728911881120403456000000000010702202861011311883118911204034560000000000106543710200000000001190112040345600000000001071627056103552052411911120403456000000000010692715351026572696119211204034560000000000105562578610191070020000112040345600000000001045408462000000000000001120403456000000000000000000000000000000000011204034560000000000000000000010496265090000)
 (.leaf 11204034560000000000000000000000000000000000112040345600000000000000000000000000000011931120403456000000000000000000000000000000119411204034560000000000000000000000000000000000112040345600000000000000000000000000000000001120403456000000000000000000000000000000119511204034560000000000000000000010521598700000112040345600000000000000000000104572353411961120403456000000000000000000000000000000000011204034560000000000000000000010388155240000111896166400000000000000000000000000000000001116078080000000000000000000001051668851000010905190400000000000000000000000000000000000110834483200000000000000000000102218619900001120403456000000000000000000001029164930000011204034560000000000000000000000000000001197)))
 (.node 2 (.node 1 (.leaf 11204034560000000000000000000010303803080000112040345600000000000000000000103996870600001120403456000000000000000000000000000000000011204034561042288436000000000000000000000000112040345600000000000000000000000000000000001120403456000000000000000000001077042217000011204034560000000000000000000000000000000000112040345600000000000000000000000000000011981120403456000000000000000000001036951221119911204034560000000000000000000000000000001200112040345600000000000000000000000000000000001120403456000000000000000000001059438173000011204034560000000000000000000000000000000000112040345600000000000000000000000000000000001120403456000000000000000000000000000000000011204034560000000000000000000000000000000000)
 (.leaf 11204034560000000000000000000010244649140000112040345600000000000000000000000000000000001120403456000000000000000000001061136536000011204034560000000000000000000010371433180000112040345600000000000000000000000000000000001120403456000000000000000000000000000000000011204034560000000000000000000000000000000000112040345600000000000000000000000000000000001120403456000000000000000000000000000000000011204034560000000000000000000000000000000000112040345600000000000000000000000000000000001120403456000000000000000000000000000000000011204034560000000000000000000010190212750000112040345600000000000000000000000000000000001120403456101674277600000000001049362927000011204034560000000000000000000010606789050000))
 (.node 1 (.leaf 11204034560000000000000000000000000000000000112040345600000000000000000000104214783800001120403456000000000000000000000000000000000011204034560000000000000000000000000000000000112040345600000000000000000000000000000000001120403456000000000000000000001043848794000011204034560000000000000000000000000000000000112040345600000000000000000000103505174200001120403456000000000000000000000000000000000011204034560000000000000000000000000000000000112040345600000000000000000000102293019600001120403456000000000000000000001036693086000011204034560000000000000000000010405069610000112040345600000000000000000000102097553600001120403456000000000000000000001056246830000011204034560000000000000000000010396549710000)
 (.leaf 11204034560000000000000000000010400966580000112040345600000000000000000000000000000000001120403456000000000000000000000000000000000011204034560000000000000000000000000000000000112040345610814449610000000000000000000000001120403456106780184200000000001032512994000011204034560000000000000000000000000000000000112040345600000000000000000000102727786000001120403456000000000000000000001037834424000011204034560000000000000000000000000000000000112040345600000000000000000000105175672700001120403456000000000010417577390000000000000011204034560000000000000000000000000000000000112040345600000000000000000000104725108900001120403456000000000000000000000000000000000011204034560000000000000000000000000000000000)))))
 (.node 8 (.node 4 (.node 2 (.node 1 (.leaf 11204034560000000000000000000000000000000000112040345610707620980000000000102469581700001120403456000000000000000000000000000000000011204034560000000000000000000000000000000000112040345600000000000000000000000000000000001117126656000000000000000000000000000000000011004805120000000000000000000000000000000000111961702400000000000000000000100177645900001111228416000000000000000000001085327479120110905190400000000000103606690810461752730000108217325600000000000000000000103294773400001120403456000000000010881006040000000000000011204034560000000000107331232710414007760000112040345600000000000000000000000000000000001120403456000000000000000000000000000000000011204034560000000000000000000000000000000000)
 (.leaf 11204034560000000000099973416900000000000000112040345600000000001090466401000000000012021120403456000000000010812580171018638710120311204034560000000000103942235110381731390000112040345600000000001078061538102724194800001120403456000000000010827740481046369871120411204034560000000000106998540500000000000000112040345600000000000000000000000000000000001120403456000000000000000000000000000000000011204034560000000000108163172910392710011205112040345600000000000000000000103015024500001120403456000000000011077545891076781604000011204034560000000000110803335210471625590000112040345600000000001107869670106481713412061120403456000000000011047841301080065713120711204034560000000000110799143610594103611208))
 (.node 1 (.leaf 11204034560000000000110813233810604163910000112040345600000000001107614342107507787512091120403456000000000011089884221042117241121011204034560000000000110793856110510970641211112040345600000000001108324988108271547312121120403456000000000011057918641078184257121311204034560000000000110911933610651523331214112040345600000000001110391626103030583212151120403456000000000011093553451040339096000011204034560000000000110916127910418053841216112040345600000000001115048457105256894912171120403456000000000011093161281074513579121811204034560000000000110560238610431180051219112040345600000000001098597899107104609112201120403456000000000000000000001077569233122111204034560000000000000000000010781152760000)
 (.leaf 11204034560000000000000000000010849681620000112040345610492318880000000000108993526212221120403456000000000000000000001083920890000011204034560000000000000000000010705578971223112040345600000000000000000000105320198600001120403456000000000000000000001054960084000011204034560000000000107189633010507985690000112040345600000000001104636700107430254412241120403456000000000011067803571074722789122511204034560000000000110811608510658754400000112040345600000000000000000000103888451612261120403456000000000000000000001023455724122711204034560000000000107554076110359307610000111896166400000000001091344794107375090000001111228416000000000000000000001053820575000011104419840000000000000000000010643997960000)))
 (.node 2 (.node 1 (.leaf 11128012800000000000000000000010852196420000111712665600000000000000000000108132340000001100480512000000000000000000001058760369000010716668180000000000000000000000000000000000111411200000000000000000000000107641011012281120403456000000000000000000001032976862122911120148480000000000000000000010693401461230109051904000000000001025087898105056834300001008981770000000000000000000000000000000000010936647680000000000000000000000000000000000112040345600000000000000000000000000000012311120403456000000000000000000000000000000000011204034560000000000000000000010307013411232112040345600000000000000000000103447001200001120403456000000000000000000000000000000000011204034560000000000105372996110067558871233)
 (.leaf 11204034560000000000106001638400000000001234112040345600000000001030134484104220239812351120403456000000000010611555571060363642123611204034560000000000107430008610524002381237112040345600000000001068235542103812395212381120403456000000000010721521831040618899123911204034560000000000105615594610459871781240112040345600000000001030161328105744429012411120403456000000000000000000001054249738124211204034560000000000000000000010406266280000112040345600000000000000000000101914657100001120403456000000000000000000001057572094000011204034560000000000000000000000000000000000112040345600000000000000000000000000000000001120403456000000000000000000000000000000124311204034560000000000000000000000000000001244))
 (.node 1 (.leaf 11204034560000000000000000000010529709000000112040345600000000000000000000104695263200001103626240000000000000000000001057551432124510968104960000000000000000000010539522720000111607808010292231460000000000106154591000001118175232000000000000000000001025245660000011181752320000000000000000000010365789720000111791308800000000000000000000106499023112461086324736000000000000000000000000000000124710905190400000000000000000000010475533010000112040345600000000000000000000103375585300001120403456000000000000000000001079769631124811204034560000000000000000000010441835581249112040345600000000000000000000104725195300001120403456110915001710611840781094637696000011204034560000000000000000000000000000000000)
 (.leaf 11204034560000000000000000000000000000000000112040345600000000000000000000000000000000001120403456000000000000000000000000000000000011204034560000000000000000000000000000001250112040345600000000001034697887000000000012511120403456000000000000000000001036261482000011204034560000000000000000000000000000000000112040345600000000000000000000000000000000001120403456000000000000000000000000000000000011204034560000000000000000000000000000000000112040345600000000000000000000000000000000001120403456000000000000000000000000000000000011204034560000000000000000000000000000000000112040345600000000000000000000000000000000001120403456000000000000000000000000000000000011204034560000000000000000000000000000000000))))
 (.node 4 (.node 2 (.node 1 (.leaf 11204034560000000000000000000010273334381252112040345600000000000000000000000000000000001120403456000000000000000000000000000000000011204034560000000000000000000000000000000000112040345600000000000000000000000000000000001120403456000000000000000000000000000000000011204034561091821789000000000000000000000000112040345600000000000000000000000000000000001120403456000000000000000000001034722244000011204034560000000000000000000000000000000000112040345600000000000000000000105803482300001120403456000000000000000000000000000000000011204034560000000000000000000010442058130000112040345600000000000000000000105065550700001120403456000000000000000000000000000000000011204034560000000000000000000000000000000000)
 (.leaf 11204034560000000000000000000010298792270000112040345600000000000000000000000000000000001120403456000000000000000000000000000000000011204034560000000000000000000000000000000000112040345600000000000000000000000000000000001120403456000000000000000000000000000000000011204034560000000000000000000000000000000000112040345600000000000000000000000000000000001120403456000000000000000000000000000000000011204034560000000000000000000000000000000000112040345600000000000000000000101444638300001120403456000000000000000000000000000000000011204034560000000000000000000010384488280000112040345600000000000000000000000000000000001120403456000000000000000000000000000000000011204034560000000000000000000000000000000000))
 (.node 1 (.leaf 11204034560000000000000000000000000000000000112040345600000000000000000000000000000000001120403456000000000000000000000000000000000011204034560000000000000000000000000000000000112040345600000000000000000000103207120100001120403456000000000000000000001061252475000011204034560000000000000000000010406826170000112040345600000000000000000000000000000000001120403456000000000000000000001024009659000011204034560000000000000000000000000000000000112040345600000000000000000000000000000000001120403456000000000000000000000000000000000011204034560000000000000000000010563503130000112040345600000000000000000000106634534500001120403456000000000000000000000000000000000011204034561057533993000000000010493724840000)
 (.leaf 11204034561060475761000000000010469647120000112040345610660584461021504284104316040800001120403456000000000000000000000000000000000011204034560000000000000000000000000000000000112040345600000000001025087898102137847500001120403456000000000000000000000000000000000011204034560000000000000000000000000000000000112040345610803093700000000000106328265000001120403456111201095900000000000000000000000011204034561061945831000000000000000000000000112040345610320839970000000000000000000000001120403456000000000000000000000000000000000011204034560000000000000000000000000000000000112040345600000000000000000000000000000000001120403456000000000000000000000000000000000010936647680000000000000000000000000000000000)))
 (.node 2 (.node 1 (.leaf 11036262400000000000000000000000000000000000111280128000000000000000000000000000000000001102053376000000000000000000001034064539000011004805120000000000104308649500000000000000112040345600000000000000000000000000000012531120403456000000000000000000000000000000000011204034560000000000000000000000000000000000112040345600000000000000000000000000000000001120403456000000000010692732130000000000000011204034560000000000105403530600000000001254112040345600000000001061977640000000000000001120403456000000000000000000001032335138000011204034560000000000000000000000000000000000112040345600000000000000000000000000000000001120403456000000000000000000000000000000000011204034560000000000106433148410229743100000)
 (.leaf 11204034560000000000000000000000000000000000112040345600000000000000000000103288436212551120403456000000000011080269821035702896000011204034560000000000110800619410573612340000112040345600000000001107632377108284599700001120403456000000000011030956081063876967000011204034560000000000110779010910760600521256112040345600000000001107489744108336154312571120403456102780070611077658351078080464000011204034560000000000110549464510686754801258112040345610584727291103832967107523384212591120403456105001753211106350271066374644126011204034560000000000110888807310810271491261112040345600000000001108719252106844900000001120403456000000000000000000001050441236126211204034560000000000000000000010845355961263))
 (.node 1 (.leaf 11204034560000000000000000000010515151471264112040345600000000001099936616108280850800001120403456000000000000000000001089121581000011204034561073025496000000000010654780981265112040345600000000000000000000105812947300001120403456000000000000000000001084150617000011204034560000000000108083942510667463200000112040345600000000001104507621107942536612661120403456000000000011073650431074962832126711204034561050464041111107228310707228940000112040345600000000001102145808107812032812681120403456105300961410631839221084265931126911204034560000000000000000000010680192871270112040345600000000000000000000000000000000001119617024000000000000000000001063697498000011171266560000000000000000000010697112960000)
 (.leaf 11128012800000000000000000000010542066800000111280128000000000000000000000106913346300001109131264000000000000000000000000000000000011067719680000000000000000000010642174480000111935488000000000000000000000105376255912711118568448000000000000000000001061514514127211135877120000000000000000000010708958280000108632473600000000000000000000104170310200001008981770000000000000000000000000000000000011204034560000000000000000000010415065661273112040345600000000000000000000102861138600001120403456000000000000000000001033657285127411204034560000000000000000000010247903290000112040345600000000001025222115000000000012751120403456000000000010583839600000000000127611204034560000000000000000000010613446831277)))))))
 (.node 32 (.node 16 (.node 8 (.node 4 (.node 2 (.node 1 (.leaf 11204034560000000000000000000010498074060000111751987200000000000000000000103571513300001120403456000000000000000000000000000000000011204034560000000000000000000000000000000000112040345600000000000000000000103532580800001120403456000000000000000000001056360443000011204034560000000000000000000000000000000000112040345600000000000000000000000000000012781120403456000000000000000000000000000000127911204034560000000000000000000000000000000000112040345600000000000000000000107806014400001100480512000000000000000000001058066412128010905190400000000000000000000010630094240000111122841600000000000000000000105043514800001120010240000000000000000000001075941291128111156848640000000000000000000010484446061282)
 (.leaf 11204034560000000000000000000010686357060000112040345600000000000000000000103423144600001120403456000000000000000000001032751512000011204034560000000000000000000010517790310000112040345600000000000000000000103505832612831120180673000000000000000000001041713828000011204034560000000000000000000010548441060000112040345600000000000000000000000000000000001120403456000000000000000000000000000000000011204034560000000000000000000010353232050000112040345600000000000000000000000000000000001120403456000000000000000000000000000000000011204034560000000000000000000000000000000000112040345600000000000000000000104472422112841120403456000000000000000000000000000000000011204034560000000000000000000010598841690000))
 (.node 1 (.leaf 11204034560000000000000000000000000000000000112040345600000000000000000000000000000000001120403456000000000000000000000000000000000011204034560000000000000000000000000000000000112040345600000000000000000000000000000000001120403456000000000000000000000000000000000011204034560000000000000000000000000000000000112040345600000000000000000000000000000000001120403456000000000000000000000000000000000011204034560000000000000000000010539798240000112040345610744130260000000000106588165200001120403456000000000000000000000000000000128511204034560000000000000000000000000000001286112040345600000000000000000000103179403500001120403456000000000000000000000000000000000011204034560000000000000000000000000000000000)
 (.leaf 11204034560000000000000000000000000000000000112040345600000000000000000000000000000000001120403456000000000000000000000000000000000011204034560000000000000000000000000000000000112040345600000000000000000000000000000000001120403456000000000000000000000000000000000011204034560000000000000000000000000000000000112040345600000000000000000000000000000000001120403456000000000000000000000000000000000011204034560000000000000000000000000000000000112040345600000000000000000000000000000000001120403456000000000000000000000000000000000011204034560000000000000000000000000000000000112040345600000000000000000000102735417000001120403456000000000000000000001021989823000011204034560000000000000000000010318242390000)))
 (.node 2 (.node 1 (.leaf 11204034560000000000000000000000000000000000112040345600000000000000000000104023704300001120403456000000000000000000000000000000000011204034560000000000000000000010290080340000112040345600000000000000000000000000000000001120403456000000000000000000001038614846000011204034560000000000000000000000000000000000112040345600000000000000000000000000000000001120403456000000000000000000000000000000000011204034560000000000000000000010251482380000112040345600000000000000000000000000000000001120403456000000000000000000000000000000000011204034560000000000000000000000000000001287112040345610936348551037570146105744316212881120403456000000000000000000001035662642000011204034560000000000000000000010589508040000)
 (.leaf 11204034561055806712104347572610664934820000112040345600000000001016887194102119151600001120403456000000000000000000000000000000000011204034560000000000000000000000000000000000112040345600000000000000000000105590348400001120403456000000000000000000000000000000000011204034560000000000000000000000000000000000111856844800000000000000000000000000000000001099431936000000000000000000000000000000000010778132770000000000000000000000000000000000110677196800000000001025061054000000000000001090519040000000000000000000000000000000000010525777690000000000000000000000000000000000112001024000000000000000000000105867640900001120403456106319481010840814131040162214128911204034560000000000104226105600000000001290))
 (.node 1 (.leaf 11204034560000000000108632955910406273481291112040345600000000000000000000000000000000001120403456000000000000000000000000000000129211204034560000000000000000000010316982080000112040345600000000000000000000000000000000001120403456000000000009964995220000000000129311204034560000000000108532229700000000001294112040345600000000001074060591000000000000001120403456000000000000000000000000000000129511204034560000000000101359886000000000000000112040345600000000001079612172000000000000001120403456000000000010970887881054909247129611204034560000000000104555610100000000001297112040345600000000000000000000102213253600001120403456000000000000000000001030080487000011204034560000000000000000000000000000000000)
 (.leaf 11204034560000000000000000000010250085730000112040345600000000001107942572106328315200001120403456000000000011080471941044971937000011204034560000000000110792658110686150660000112040345600000000001107537271108435916800001120403456000000000011078318421056572938129811204034560000000000110776510110776991180000112040345600000000001107587891108228714212991120403456000000000011022195231061365330130011204034560000000000110199061910578835951301112040345600000000001100633447103600116800001120403456000000000011006007311053866509130211204034560000000000110129562310506043890000112040345600000000001109623570000000000013031120403456000000000010785543680000000000130411204034560000000000109649351110839304231305))))
 (.node 4 (.node 2 (.node 1 (.leaf 11204034560000000000110327528210833236371306112040345600000000001110845555107433332813071120403456000000000011078188401059686516130811204034560000000000000000000010594952981309112040345600000000000000000000109031642200001120403456000000000000000000001085990274000011204034561021496768109430890810498285710000112040345600000000001097594621104725983713101120403456000000000010600801371058445685131111204034560000000000109939172310357631161312112040345600000000001104724047107078241013131120403456100951434611038212751068313722131411204034560000000000110776384210720170321315112040345610406557451109736187108462490713161120403456000000000011085255801083451158131711128012800000000000000000000010546066331318)
 (.leaf 10936647680000000000000000000000000000000000111201484800000000000000000000000000000000001114898432000000000000000000001046899255000011204034560000000000000000000010612985100000112040345600000000000000000000107399049100001106771968000000000000000000001053868830000010592672810000000000000000000000000000000000100898177000000000000000000000000000000000001008981770000000000000000000000000000000000011075584000000000000000000000010772738000000112040345610348812280000000000000000000000001120403456000000000000000000000000000000000011204034560000000000000000000000000000000000112040345600000000000000000000000000000000001120403456000000000000000000000000000000000011204034560000000000104898200900000000001319))
 (.node 1 (.leaf 11204034560000000000106158505300000000001320112040345600000000001049539012104538173113211077936128000000000000000000000000000000000011185684480000000000000000000000000000001322111634022400000000000000000000000000000000001119354880000000000000000000001033070593132311204034560000000000000000000010316399420000112040345600000000000000000000000000000000001120403456000000000000000000000000000000132411204034560000000000000000000000000000001325112040345600000000000000000000000000000013261120403456000000000000000000000000000000132711204034560000000000000000000000000000001328112040345600000000000000000000000000000000001120403456000000000000000000000000000000132911204034560000000000000000000000000000001330)
 (.leaf 10432933920000000000000000000000000000000000110755840000000000000000000000105653578900001120010240000000000000000000001076431692000011204034560000000000000000000000000000000000111489843200000000000000000000101192002913311114898432000000000000000000001074545765000011167334400000000000000000000010760138650000110913126400000000000000000000107126481813321120403456000000000000000000001068570715000011204034561045193579000000000010565462391333112040345600000000000000000000107577212213341120403456000000000000000000000000000000000011204034560000000000000000000010436065800000112040345600000000000000000000103342790600001120403456000000000000000000000000000000133511204034560000000000000000000000000000000000)))
 (.node 2 (.node 1 (.leaf 11204034560000000000000000000000000000000000112040345600000000000000000000000000000013361120403456104570931100000000001029580244000011204034560000000000000000000010730326840000112040345600000000000000000000107455762200001120403456000000000000000000000000000000000011204034560000000000000000000000000000000000112040345600000000000000000000102517563800001120403456000000000000000000000000000000000011204034560000000000000000000010429994690000112040345600000000000000000000000000000000001120403456000000000000000000000000000000000011204034560000000000000000000000000000000000112040345600000000000000000000000000000000001120403456000000000000000000000000000000000011204034560000000000000000000000000000000000)
 (.leaf 11204034560000000000000000000000000000000000112040345600000000000000000000104138620500001120403456000000000000000000000000000000000011204034560000000000000000000000000000000000112040345600000000000000000000000000000013371120403456000000000000000000000000000000000011204034560000000000000000000000000000000000112040345600000000000000000000000000000000001120403456000000000000000000000000000000000011204034560000000000000000000000000000000000112040345600000000000000000000000000000000001120403456000000000000000000000000000000000011204034560000000000000000000000000000000000112040345600000000000000000000000000000000001120403456000000000000000000000000000000000011204034560000000000000000000000000000000000))
 (.node 1 (.leaf 11204034560000000000000000000000000000000000112040345600000000000000000000000000000000001120403456000000000000000000000000000000000011204034560000000000000000000000000000000000112040345600000000000000000000000000000000001120403456000000000000000000000000000000000011204034560000000000000000000000000000000000112040345600000000000000000000000000000000001120403456094075621500000000000987243813000011204034560000000000000000000010286031960000112040345600000000000000000000000000000000001120403456000000000000000000000000000000000011204034560000000000000000000000000000000000112040345600000000000000000000000000000000001120403456000000000000000000001032148093000011204034560000000000000000000000000000000000)
 (.leaf 11204034560000000000000000000000000000000000112040345600000000000000000000000000000000001120403456000000000000000000000000000000000011204034560000000000000000000010376940810000112040345600000000000000000000000000000000001120403456000000000000000000001028033416000011204034560000000000000000000000000000000000112040345600000000000000000000000000000000001120403456109005627411056332141059956531000011204034560000000000000000000000000000000000112040345600000000000000000000000000000000001120403456000000000000000000000000000000000011204034560000000000000000000000000000000000112040345600000000000000000000000000000000001120403456000000000000000000000000000000000011204034560000000000000000000000000000000000)))))
 (.node 8 (.node 4 (.node 2 (.node 1 (.leaf 11179130880000000000107162202310607760500000111358771210625784491033771785106107553300001110441984000000000010305908241053386293000011020533760000000000101635032410328214400000110205337600000000000000000000104087188800001099431936000000000000000000001059183805000011204034560000000000000000000010515094470000112040345600000000000000000000000000000013381120403456000000000010788987211031324555000011204034560000000000000000000000000000000000112040345600000000000000000000000000000000001120403456000000000010821719560000000000133911204034560000000000108478207110676585801340112040345600000000001074301344103243967000001120403456000000000010777650000000000000000011204034560000000000000000000000000000000000)
 (.leaf 11204034560000000000000000000000000000000000112040345600000000001075894760000000000013411120403456000000000010714769000000000000000011204034560000000000108328533410344787380000112040345600000000000000000000000000000000001120403456000000000010777599670000000000134211204034560000000000000000000000000000000000112040345600000000000000000000000000000000001120403456000000000000000000001040195247000011204034560000000000000000000010338356870000112040345600000000001108008659105195281800001120403456000000000011080530661036919700000011204034560000000000110787698410548697080000112040345600000000001107967056106529671400001120403456000000000011080169681059070880000011204034560000000000110797809310579744591343))
 (.node 1 (.leaf 11204034561045820309108320711010733807220000112040345600000000001090370771104222250600001120403456000000000010930573280000000000000011204034560000000000109807874900000000000000112040345610251270891107934813105194029913441120403456000000000010984351600000000000134511204034560000000000110327512410758531491346112040345600000000001105194018108376556613471120403456000000000011053775191060510131134811204034560000000000109429936610485882301349112040345600000000000000000000106712840713501120403456000000000000000000000000000000135111204034560000000000000000000010834615681352112040345600000000000000000000107618561100001120403456000000000000000000001079400036000011204034560000000000000000000010899688121353)
 (.leaf 11204034560000000000000000000010942753610000112040345610777838791084401857107544661513541120403456000000000011017145811062314874135511204034560000000000110076866110592881411356112040345600000000001106299952105361552413571120403456000000000011058270441073803960000011204034560000000000109066615510656750991358112040345600000000001109531768106825677713591120403456000000000011086122981085460478136011200102400000000000110667272010764165250000106632344200000000000000000000000000000000001108344832000000000000000000001043714360136111189616640000000000000000000010769168471362112040345600000000000000000000108474331400001120010240000000000000000000001080072152136311193548800000000000000000000010863088471364)))
 (.node 2 (.node 1 (.leaf 11163402240000000000000000000010807092470000111122841600000000000000000000107756195500001100480512000000000000000000001054648597000010408454620000000000000000000000000000000000100898177000000000000000000000000000000000001008981770000000000000000000000000000000000011204034560000000000000000000010010781941365112040345600000000000000000000103781319413661120403456000000000000000000001033155605000011204034560000000000000000000000000000000000112040345600000000001057229688000000000013671120403456000000000000000000001015370937000011204034560000000000000000000000000000000000112040345610433537900000000000103774194400001120403456000000000000000000001037367630136811204034560000000000000000000010320569280000)
 (.leaf 11204034561064681809000000000010637041280000106019563100000000000000000000000000000000001096810496000000000000000000000000000000000011020533760000000000000000000010442043700000110205337600000000000000000000000000000000001120403456000000000000000000001060895859136911204034560000000000000000000000000000000000112040345600000000000000000000000000000013701120403456000000000000000000000000000000000011204034560000000000000000000000000000001371112040345600000000000000000000105469751400001116733440000000000000000000001072817889137210905190401049246652000000000000000000000000107793612800000000000000000000000000000000001117913088000000000000000000001040301253000011193548800000000000000000000010244831311373))
 (.node 1 (.leaf 11112284160000000000000000000000000000000000110205337600000000000000000000102341298300001033097878000000000000000000001033097878000011020533760000000000000000000010192754370000111673344000000000000000000000103869348400001120403456000000000000000000000000000000000011204034560000000000000000000010435871360000112040345600000000000000000000102006000900001100443392000000000000000000000000000000000011042080420000000000000000000000000000000000111592392600000000000000000000000000000000001120241399000000000000000000000000000000000011204034560000000000000000000000000000000000112040345600000000000000000000000000000000001120403456000000000000000000000000000000000011204034560000000000000000000000000000001374)
 (.leaf 11204034561075891170000000000010722511900000112040345600000000000000000000000000000000001120403456000000000000000000000000000000000011204034560000000000000000000000000000000000112040345600000000000000000000000000000000001120403456000000000000000000000000000000000011204034560000000000000000000000000000000000112040345600000000000000000000000000000000001120403456000000000010313156000000000000000011204034560000000000103021501500000000000000112040345600000000000000000000000000000013751120403456000000000000000000000000000000000011204034560000000000000000000010522748760000112040345600000000000000000000000000000000001120403456000000000000000000000000000000000011204034560000000000000000000000000000000000))))
 (.node 4 (.node 2 (.node 1 (.leaf 11204034560000000000000000000010290566200000112040345600000000000000000000000000000000001120403456000000000000000000000000000000000011204034560000000000000000000000000000000000112040345600000000000000000000103371866200001120403456000000000000000000000000000000000011204034560000000000000000000000000000000000112040345600000000000000000000000000000000001120403456000000000000000000000000000000000011204034560000000000000000000000000000000000112040345600000000000000000000000000000000001120403456000000000000000000000000000000000011204034560000000000000000000000000000000000112040345600000000000000000000000000000000001120403456000000000000000000000000000000000011204034560000000000000000000000000000000000)
 (.leaf 11204034560000000000000000000000000000000000112040345600000000000000000000103712012700001120403456000000000000000000000000000000000011204034560000000000000000000010536526630000112040345600000000000000000000000000000000001120403456000000000000000000000000000000000011204034560000000000000000000000000000000000112040345600000000000000000000000000000000001120403456000000000000000000000000000000000011204034560000000000000000000000000000000000112040345600000000000000000000102806805400001120403456000000000000000000001040193442000011204034560000000000110041476610798750250000112040345600000000000000000000106909366300001120403456000000000000000000000000000000000011204034560000000000000000000010602781620000))
 (.node 1 (.leaf 11204034560000000000000000000000000000000000112040345600000000000000000000000000000000001120403456000000000000000000001055745438137611204034560000000000000000000000000000000000112040345600000000000000000000000000000000001120403456000000000000000000000000000000000011204034560000000000000000000000000000000000107815532200000000000000000000000000000000001114112000000000000000000000001026170467137711075584000000000000000000000010558612370000109681049600000000000000000000102718727800001120403456000000000000000000001032112273000011204034560000000000109377864310475720911378112040345600000000000000000000000000000000001120403456000000000010768841970000000000000011204034560000000000108077944700000000000000)
 (.leaf 11204034560000000000106358322010184517001379112040345600000000001051099293000000000013801120403456000000000010915285040000000000000011204034560000000000109016588010492129620000112040345600000000001079456144102302498000001120403456000000000000000000000000000000000011204034560000000000000000000000000000000000112040345600000000001076820443000000000013811120403456000000000010884699130000000000138211204034560000000000108620205310714876711383112040345600000000000000000000105516147113841120403456000000000000000000000000000000000011204034560000000000000000000000000000001385112040345600000000000000000000000000000000001120403456000000000010888574661016514656000011204034560000000000107043084010310724331386)))
 (.node 2 (.node 1 (.leaf 11204034560000000000000000000000000000000000112040345600000000000000000000000000000000001120403456000000000000000000000000000000138711204034560000000000000000000010395903030000112040345600000000001098938948100948735013881120403456000000000011080607201042982948000011204034560000000000110802816210488854640000112040345600000000001107732306107540228600001120403456000000000010977103841068839844000011204034560000000000110795806510541020401389112040345600000000001108066828104347207300001120403456000000000011074846331076621236139011204034560000000000110175248710695957380000112040345600000000000000000000000000000000001120403456000000000010916604151040562259139111204034560000000000111044526110608633801392)
 (.leaf 11204034560000000000110189074200000000000000112040345600000000001108250486105657512813931120403456000000000010973894151066250471000011204034560000000000110751137110821540441394112040345600000000001099937612106048341913951120403456000000000011002744671058302193139611204034560000000000000000000000000000001397112040345600000000000000000000000000000013981120403456000000000010901488930000000000139911204034560000000000107873011000000000001400112040345600000000000000000000107914662314011120403456000000000000000000001069425494140211204034560000000000110818516010496699261403112040345600000000001107935048108208191114041120403456000000000010987418681058609323140511204034560000000000108263207110368170831406))
 (.node 1 (.leaf 10779361280000000000106336511610517395650000110362624000000000000000000000106913731800001120403456000000000000000000001085108009140711204034560000000000000000000010882074121408108632473600000000000000000000104628370200001008981770000000000000000000000000000000000010089817700000000000000000000000000000000000100898177000000000000000000000000000000000001008981770000000000000000000000000000000000010089817700000000000000000000000000000000000111358771200000000000000000000108064235900001120403456000000000000000000001024102099000011204034560000000000000000000010285767771409112040345600000000000000000000000000000014101120403456000000000000000000000000000000000011204034560000000000000000000000000000000000)
 (.leaf 11204034560000000000000000000010672906681411112040345600000000000000000000000000000000001120403456000000000000000000000000000000000011181752320000000000000000000000000000000000110362624000000000000000000000000000000000001109131264000000000000000000001045011050000011185684480000000000000000000000000000000000112040345600000000000000000000104785448100001120403456000000000000000000000000000000000011204034560000000000000000000010362075470000112040345600000000000000000000000000000000001117519872000000000000000000001031187572000010779361280000000000000000000000000000000000109095167200000000000000000000000000000000001120403456000000000000000000001067904989141211204034560000000000000000000000000000000000))))))
 (.node 16 (.node 8 (.node 4 (.node 2 (.node 1 (.leaf 11204034560000000000000000000010302107771413112040345600000000000000000000000000000000001120403456000000000000000000001052220397000011204034560000000000000000000000000000000000112040345600000000000000000000000000000000001120403456000000000000000000000000000000000011204034561055816543000000000000000000001414112040345610591744690000000000103415764500001120403456000000000000000000000000000000000011204034561058138392000000000010385177460000110991769600000000000000000000107491352714151102053376000000000000000000001046748823000010905190400000000000000000000000000000000000110048051200000000000000000000000000000000001120010240000000000000000000000000000000000011204034560000000000000000000000000000000000)
 (.leaf 11204034560000000000000000000000000000000000112040345600000000000000000000000000000000001120403456000000000000000000001071536160000011204034560000000000000000000010273358680000110110315600000000000000000000000000000000001115569363000000000000000000000000000000000011202883880000000000000000000000000000000000112040345600000000000000000000000000000000001120403456000000000000000000000000000000000011204034560000000000000000000000000000000000112040345600000000000000000000000000000000001120403456000000000000000000000000000000000011204034560000000000000000000000000000000000112040345600000000000000000000000000000000001120403456000000000000000000000000000000000011204034560000000000000000000000000000000000))
 (.node 1 (.leaf 11204034561096431467000000000000000000000000112040345600000000000000000000000000000000001120403456000000000000000000000000000000000011204034560000000000000000000000000000000000112040345600000000000000000000103654293600001120403456000000000000000000000000000000000011204034560000000000000000000000000000000000112040345600000000000000000000000000000000001120403456000000000000000000001033819997000011204034560000000000000000000000000000000000112040345600000000000000000000000000000000001120403456000000000000000000000000000000000011204034561033573545000000000000000000000000112040345600000000000000000000000000000000001120403456000000000000000000000000000000000011204034560000000000000000000010124646450000)
 (.leaf 11204034560000000000000000000000000000000000112040345600000000000000000000102529706200001120403456000000000000000000001015875305000011204034560000000000000000000000000000001416112040345600000000000000000000000000000000001120403456000000000000000000000000000000000011204034560000000000104803912900000000000000112040345600000000000000000000000000000000001120403456000000000010250610540000000000000011204034560000000000000000000010320789380000112040345600000000000000000000103388089800001120403456000000000000000000000000000000000011204034560000000000000000000000000000000000112040345600000000000000000000000000000000001120403456000000000000000000000000000000000011204034560000000000000000000000000000000000)))
 (.node 2 (.node 1 (.leaf 11204034560000000000000000000010394331700000112040345600000000000000000000103546574600001120403456000000000000000000000000000000000011204034560000000000000000000000000000000000112040345600000000000000000000000000000000001120403456000000000000000000000000000000000011204034560000000000000000000000000000000000112040345600000000000000000000000000000000001120403456000000000000000000000000000000000011204034560000000000000000000000000000000000112040345600000000000000000000000000000000001120403456000000000000000000000000000000000011204034560000000000000000000000000000000000112040345600000000000000000000000000000000001120403456100373278300000000000000000000000011204034560000000000000000000000000000000000)
 (.leaf 11204034560000000000000000000000000000000000112040345600000000000000000000000000000000001120403456000000000000000000000000000000000011204034560000000000000000000000000000000000112040345600000000000000000000000000000000001120403456000000000000000000000000000000000011204034560000000000000000000010371629300000112040345600000000000000000000105358311100001120403456000000000000000000000000000000000011204034560000000000000000000000000000000000112040345600000000000000000000103761092500001120403456000000000000000000000000000000000011204034560000000000000000000010391252550000112040345600000000000000000000000000000000001120403456000000000000000000000000000000000011204034560000000000000000000000000000000000))
 (.node 1 (.leaf 11204034560000000000000000000000000000000000112040345600000000000000000000103332602100001120403456000000000000000000001074227768000011204034560000000000000000000010591965350000112040345600000000000000000000105172449900001120403456000000000000000000001084536727000011204034560000000000000000000010576750940000112040345600000000000000000000000000000000001120403456000000000000000000000000000000000011204034560000000000000000000000000000000000112040345600000000000000000000106205140500001120403456000000000000000000000000000000141711204034560000000000000000000000000000000000112040345600000000000000000000000000000000001120403456000000000000000000000000000000000011204034560000000000000000000000000000000000)
 (.leaf 11204034560000000000000000000000000000000000112040345600000000000000000000000000000000001074568437000000000000000000000000000000000011167334400000000000000000000000000000001418112040345600000000000000000000000000000014191110441984000000000000000000001047579955142011020533760000000000000000000010224418470000109899142900000000000000000000104285270000001103626240000000000010334228191038528188000010779361280000000000000000000000000000000000112040345600000000000000000000000000000014211120403456000000000010842045151068386224142211204034560000000000109191668710672823131423112040345600000000000000000000000000000000001120403456000000000010800601240000000000000011204034560000000000106810300210446257160000))))
 (.node 4 (.node 2 (.node 1 (.leaf 11204034560000000000107422920210262635690000112040345600000000001074869672000000000000001120403456000000000010773992571043745751000011204034560000000000000000000000000000000000112040345600000000001079332831104222729800001120403456000000000010558774440000000000000011204034560000000000107465744110329954360000112040345600000000001071231114100670920200001120403456000000000000000000000000000000000011204034560000000000000000000000000000001424112040345600000000000000000000000000000000001120403456000000000000000000000000000000000011204034560000000000000000000000000000000000112040345600000000000000000000000000000000001120403456000000000000000000001025132294000011204034560000000000000000000000000000001425)
 (.leaf 11204034560000000000110798734610576251030000112040345600000000001108043157104192120914261120403456000000000011079093321068646397000011204034560000000000102702063310243692540000112040345600000000001102931716106029786514271120403456000000000011079375911068163400000011204034560000000000109381345610628185080000112040345600000000001092022383105599299114281120403456000000000000000000001023240985000011204034560000000000107870578310324844480000112040345600000000001095897920103333737814291120403456104948358011103777591063573697143011204034560000000000110800640410665207791431112040345600000000001110194651105728235914321120403456000000000011029429881040204880143311204034560000000000110237895910657913850000))
 (.node 1 (.leaf 11204034560000000000109162623110579617311434112040345600000000001076665254104820832214351120403456000000000000000000000000000000143611204034560000000000106703764810283837480000112040345600000000000000000000000000000014371120403456000000000000000000001059620078143811204034560000000000000000000000000000001439112040345600000000001107469166108267404414401120403456000000000011077923111072291902144111204034561045295652110754615810743888661442112040345600000000001075309235102363172914431120403456000000000011074641331062889690144411204034560000000000110572244810721057871445112040345600000000001106745387107133885914461049573338000000000000000000000000000000000011004805120000000000000000000010622697690000)
 (.leaf 11167334400000000000000000000010724467370000110048051200000000000000000000105002749400001054430980000000000000000000001014750751000010089817700000000000000000000000000000000000100898177000000000000000000000000000000000001086324736000000000000000000000000000000000011075584000000000000000000000000000000000000109587275400000000000000000000000000000000001096908014000000000000000000000000000000000010863247360000000000000000000000000000000000108206265200000000000000000000000000000000001047330191000000000000000000000000000000000011204034560000000000000000000000000000000000112040345600000000000000000000000000000000001120403456000000000000000000000000000000144711204034560000000000000000000010679028900000)))
 (.node 2 (.node 1 (.leaf 11204034560000000000000000000010820717301448112040345600000000000000000000104682870214491110441984000000000000000000000000000000000010905190400000000000000000000000000000000000100898177000000000000000000000000000000000001120403456000000000000000000000000000000145011204034560000000000000000000000000000001451111961702400000000000000000000000000000000001077936128000000000000000000000000000000000010905190400000000000000000000000000000000000112040345600000000000000000000102647779814521120403456000000000000000000001051122833145311204034560000000000000000000010343181731454112040345600000000000000000000000000000000001120403456000000000000000000000000000000145511204034560000000000000000000000000000001456)
 (.leaf 11204034560000000000000000000000000000000000112040345600000000000000000000000000000000001120403456000000000000000000000000000000000011204034560000000000000000000010447297650000111896166400000000000000000000000000000000001120403456000000000010608955100000000000000011204034560000000000104764989800000000000000112040345600000000001063170500000000000000001120403456000000000000000000000000000000000011204034560000000000000000000000000000000000112040345600000000000000000000000000000000001120403456000000000000000000000000000000000011204034560000000000000000000000000000000000112040345600000000000000000000000000000000001120403456000000000000000000000000000000000011204034560000000000000000000000000000000000))
 (.node 1 (.leaf 11204034560000000000000000000000000000000000112040345600000000000000000000000000000014571120403456000000000000000000000000000000000011204034560000000000000000000000000000000000112040345610470306840000000000000000000000001120403456000000000000000000001041588133000011204034560000000000000000000010253032080000112040345600000000000000000000105124831600001120403456000000000000000000001065126901000011204034560000000000000000000000000000000000112040345600000000000000000000000000000000001120403456000000000000000000000000000000000011204034560000000000000000000000000000000000112040345600000000000000000000000000000000001120403456000000000010593603940000000000000011204034561025123868000000000000000000000000)
 (.leaf 11204034560000000000104067057600000000000000112040345600000000000000000000000000000000001120403456000000000000000000001034819568000011204034560000000000000000000000000000000000112040345600000000001025114741000000000000001120403456000000000000000000000000000000000011204034560000000000000000000000000000000000112040345600000000000000000000000000000000001120403456000000000000000000000000000000000011204034560000000000000000000000000000000000112040345610680986060000000000000000000000001120403456000000000000000000000000000000000011204034560000000000000000000000000000000000112040345600000000000000000000000000000000001120403456000000000000000000000000000000000011204034560000000000000000000000000000000000)))))
 (.node 8 (.node 4 (.node 2 (.node 1 (.leaf 11204034560000000000000000000000000000000000112040345600000000000000000000000000000000001120403456000000000000000000000000000000000011204034560000000000000000000000000000000000112040345600000000000000000000000000000000001120403456000000000000000000000000000000000011204034560000000000000000000000000000000000112040345600000000000000000000000000000000001120403456000000000000000000000000000000000011204034560000000000000000000010154050270000112040345600000000000000000000000000000000001120403456000000000000000000000000000000000011204034560965269204000000000010555987300000112040345610937604051037878847105896272100001120403456000000000000000000001024968709000011204034560000000000000000000010312302490000)
 (.leaf 11204034561057384995106477104710344132390000112040345600000000000000000000000000000000001120403456000000000000000000000000000000000011204034561060072688000000000010231395470000112040345600000000000000000000105829104400001120403456000000000000000000000000000000000011204034560000000000000000000010534417450000112040345600000000000000000000000000000000001120403456104606143100000000000000000000000011204034560000000000000000000000000000000000112040345600000000000000000000000000000000001120403456000000000000000000000000000000000011204034560000000000000000000000000000000000112040345600000000000000000000000000000000001102053376000000000000000000000000000000000011204034560000000000106161021900000000001458))
 (.node 1 (.leaf 11204034560000000000000000000000000000001459112040345600000000000000000000102893188614601120403456000000000000000000001084569696000011200102400000000000103621454710622129780000110362624000000000000000000000102227324900001097089313000000000000000000001054305750000010939206210000000000000000000000000000000000112040345600000000000000000000000000000014611120403456000000000010724449451059330666146211204034560000000000108796722510330487361463112040345600000000001086190938000000000000001120403456000000000010900436160000000000000011204034560000000000108611753700000000000000112040345600000000001095975305000000000000001120403456106074201500000000000000000000000011204034560000000000109123616110551108170000)
 (.leaf 11204034560000000000000000000010373781230000112040345600000000000000000000000000000000001120403456000000000010817915320000000000146411204034560000000000000000000010252660861465112040345600000000001083033466102392621000001120403456000000000011041720241056746969146611204034560000000000000000000000000000000000112040345600000000000000000000000000000000001120403456000000000000000000000000000000000011204034560000000000000000000000000000000000112040345600000000001061041471000000000000001120403456000000000010787452091032042167000011204034560000000000108554228910528631860000112040345600000000001095460140104053178400001120403456000000000010714441840000000000000011204034560990396373110783905110618362160000)))
 (.node 2 (.node 1 (.leaf 11204034560000000000106733292710285665490000112040345600000000001099960418107308736000001120403456000000000010758356211038126871000011204034560000000000109784376310435670950000112040345600000000001091108025106009275300001120403456000000000000000000000000000000000011204034560000000000000000000000000000000000112040345610511482831082454861106630396514671120403456000000000011079522451065836602146811204034560000000000109428888000000000001469112040345600000000001103629228105966717200001120403456000000000010855183811045547642000011204034560000000000109572196910373634101470112040345600000000001058991296000000000014711120403456000000000000000000000000000000147211204034560000000000000000000010309398871473)
 (.leaf 11204034560000000000000000000010650487381474112040345600000000000000000000104962835114751120403456000000000010754346451040861461147611204034560000000000109065420100000000001477112040345600000000001099546650104150345614781120403456000000000011047135611066144884147911204034560000000000110506630210678398621480112040345600000000001102797603105858109900001120403456000000000010827929221045431519148111204034560000000000110793038210624216021482109051904000000000001073575730104209240300001096810496000000000000000000000000000000148311185684480000000000000000000000000000001484112040345600000000000000000000000000000014851120403456000000000000000000000000000000000011204034560000000000000000000010451719470000))
 (.node 1 (.leaf 11193548800000000000000000000000000000001486111712665600000000000000000000000000000000001116078080000000000000000000001026553045148711181752320000000000000000000000000000001488111607808000000000000000000000000000000014891116733440000000000000000000001010986519149011120148480000000000000000000000000000000000111568486400000000000000000000000000000014911120403456000000000000000000001033531497000011204034560000000000000000000010211491280000112040345600000000000000000000000000000000001120403456000000000000000000001003133888149211036262400000000000000000000010798710080000110755840000000000000000000000105162124214931117519872000000000000000000000000000000000011185684480000000000000000000010273340300000)
 (.leaf 11083448320000000000000000000000000000000000106490882100000000000000000000000000000000001120403456000000000000000000000000000000000011204034560000000000000000000000000000000000112040345600000000000000000000104304140300001120403456000000000000000000000000000000000011204034560000000000000000000000000000001494109051904000000000000000000000000000000000001120403456000000000000000000001016726066000011204034560000000000000000000000000000000000112040345600000000000000000000000000000000001120403456000000000000000000000000000000000011204034560000000000000000000000000000001495112040345600000000000000000000000000000014961120403456000000000000000000000000000000149711204034560000000000000000000000000000001498))))
 (.node 4 (.node 2 (.node 1 (.leaf 11204034560000000000000000000010202497651499110519910400000000000000000000000000000000001077936128000000000000000000000000000000000011135877120000000000000000000000000000000000111896166400000000001016833507000000000000001120403456000000000010751196530000000000000011204034560000000000106879338400000000000000112040345600000000001069549198101908749200001120403456000000000010681701110000000000000011204034560000000000104371731800000000000000112040345600000000000000000000000000000000001120403456000000000000000000000000000000000011047629490000000000000000000010514884130000112040345600000000000000000000103318298200001120403456000000000000000000000000000000000011204034560000000000000000000000000000000000)
 (.leaf 11204034560000000000000000000000000000000000112040345600000000000000000000000000000000001120403456000000000000000000000000000000000011204034560000000000000000000000000000000000112040345600000000000000000000000000000000001120403456000000000000000000000000000000000011204034560000000000000000000000000000000000112040345600000000000000000000000000000015001120403456000000000000000000000000000000000011204034560000000000000000000000000000000000112040345600000000000000000000000000000000001120403456000000000000000000000000000000000011204034560000000000000000000000000000000000112040345600000000000000000000000000000000001120403456000000000000000000001043979478000011204034560000000000000000000010841977070000))
 (.node 1 (.leaf 11204034560000000000000000000000000000000000112040345600000000000000000000101430792700001120403456000000000000000000000000000000000011204034560000000000000000000000000000000000112040345600000000000000000000103289575700001120403456000000000000000000001045784296000011204034560000000000000000000010205942050000112040345600000000000000000000000000000000001120403456000000000000000000000000000000000011204034560000000000000000000000000000000000112040345600000000000000000000104212498100001120403456000000000000000000001033114673000011204034560000000000000000000000000000000000112040345600000000000000000000000000000000001120403456102504736400000000000000000000000011204034560000000000000000000000000000000000)
 (.leaf 11204034560000000000103134244400000000000000112040345600000000001042180525000000000000001120403456000000000010384694050000000000000011204034560000000000000000000000000000000000112040345600000000000000000000105893658300001120403456000000000000000000001018676927000011204034560000000000000000000000000000000000112040345600000000001016833507000000000000001120403456000000000000000000000000000000000011204034560000000000000000000000000000000000112040345600000000000000000000000000000000001120403456000000000000000000000000000000000011204034560000000000000000000000000000000000112040345600000000001033422819000000000000001120403456000000000000000000000000000000000011204034560000000000000000000000000000000000)))
 (.node 2 (.node 1 (.leaf 11204034560000000000000000000000000000000000112040345600000000000000000000000000000000001120403456000000000000000000000000000000000011204034560000000000000000000000000000000000112040345600000000001030027110000000000000001120403456000000000000000000000000000000000011204034560000000000000000000000000000000000112040345600000000000000000000000000000000001120403456000000000000000000000000000000000011204034560000000000000000000000000000000000112040345600000000000000000000000000000000001120403456000000000000000000000000000000000011204034560000000000000000000000000000000000112040345600000000000000000000000000000000001120403456000000000000000000000000000000000011204034560000000000000000000000000000000000)
 (.leaf 11204034560000000000000000000000000000000000112040345600000000000000000000000000000000001120403456000000000000000000001021811249000011204034560000000000000000000000000000000000112040345600000000000000000000000000000000001120403456000000000000000000000000000000000011204034560000000000000000000000000000000000112040345600000000000000000000000000000000001120403456000000000000000000000000000000000011204034560000000000000000000000000000000000112040345600000000000000000000103708361400001120403456109441954310414490391059834823150111204034561039668909000000000000000000000000112040345600000000000000000000000000000000001120403456000000000000000000001025086692000011204034560000000000000000000010453376430000))
 (.node 1 (.leaf 11204034560000000000000000000010306593900000112040345600000000000000000000103543092700001120403456000000000000000000000000000000000011204034561094586477110753955200000000000000112040345610683388221096173801000000000000001120403456000000000000000000000000000000000011204034560000000000000000000000000000000000112040345600000000000000000000000000000000001120403456000000000000000000000000000000000011204034560000000000000000000000000000000000112040345600000000000000000000000000000000001117519872000000000000000000000000000000000011051991040000000000000000000000000000000000106384021300000000000000000000000000000000001099431936000000000000000000000000000000000011135877120000000000000000000000000000000000)
 (.leaf 11204034560000000000105163280910318763661502112040345600000000000000000000104316649915031120403456000000000000000000000000000000000011200102401074942188103308727410695382630000111201484800000000001030376076000000000000001090519040000000000000000000000000000000000010779361280000000000000000000010323088340000112040345600000000000000000000000000000015041120403456000000000000000000000000000000150511204034560000000000108437941810748925421506112040345600000000001088188265000000000015071120403456000000000010859583641024885656150811204034560000000000109178718800000000001509112040345600000000001076581368099903705600001120403456000000000010892102071042977900000011204034560000000000103272488600000000000000))))))))
 (.node 64 (.node 32 (.node 16 (.node 8 (.node 4 (.node 2 (.node 1 (.leaf 11204034560000000000000000000010316481320000112040345600000000001033302023000000000000001120403456000000000010177461880000000000000011204034560000000000000000000010208553270000112040345600000000001077121594102227171800001120403456000000000011004350041051607089151011204034560000000000108699603410328215231511112040345600000000001062798046103872571200001120403456000000000010693562601033366050151211204034560925353388000000000000000000001513112040345600000000000000000000000000000000001120403456000000000000000000000000000000000011204034560000000000000000000000000000001514112040345600000000001079218327102292213100001120403456000000000010815612651043584582000011204034560000000000109938323010426470010000)
 (.leaf 11204034561043258495000000000010278238010000112040345600000000000000000000000000000000001120403456000000000000000000000000000000000011204034560000000000105673979310722754131515112040345600000000001055340573000000000015161120403456000000000010959546481042405411000011204034560000000000110736963010632945701517112040345600000000001101353714107269206300001120403456000000000010709089911043763476151811204034560000000000000000000010252967941519112040345600000000000000000000000000000015201120403456000000000000000000001029321365152111204034560000000000000000000010396252251522112040345600000000001104413983107169971115231120403456000000000010968619811045896328152411204034560000000000110042902710530058321525))
 (.node 1 (.leaf 11204034560000000000109821286210496317280000112040345600000000001094415129104063825415261120403456000000000010910042161050522696000011204034560000000000110784602410685995321527110519910400000000000000000000000000000015281120403456000000000000000000000000000000152911204034560000000000000000000000000000001530112040345600000000000000000000103665985115311120403456000000000000000000001044799459153211204034560000000000000000000000000000001533112040345600000000000000000000000000000015341120403456000000000000000000000000000000153511204034560000000000000000000000000000001536112040345600000000000000000000000000000000001120403456000000000000000000000000000000153711204034560000000000000000000000000000000000)
 (.leaf 11204034560000000000000000000010583074451538112040345600000000001025087898101998630000001120403456000000000000000000001054548782000011204034560000000000000000000010540133731539112040345600000000000000000000000000000015401120403456000000000000000000000000000000154110905190400000000000000000000000000000000000111358771200000000000000000000000000000000001065665859000000000000000000000000000000000010905190400000000000000000000000000000000000110834483200000000000000000000000000000000001120403456000000000000000000000000000000154211204034560000000000000000000010398496890000112040345600000000000000000000000000000015431086324736000000000000000000000000000000000010779361280000000000000000000000000000000000)))
 (.node 2 (.node 1 (.leaf 10994319360000000000000000000000000000000000111122841600000000000000000000103565983300001118568448000000000000000000001008020110154411204034560000000000000000000010408774751545112040345600000000000000000000000000000000001120403456000000000000000000001037368548000011204034560000000000000000000000000000001546112040345600000000000000000000000000000015471120403456000000000000000000000000000000154811204034560000000000000000000000000000001549112040345600000000000000000000000000000015501120403456000000000000000000000000000000155111204034560000000000000000000000000000001552112040345600000000000000000000000000000015531120403456000000000000000000000000000000155411204034560000000000000000000000000000001555)
 (.leaf 11204034560000000000000000000010640106391556104619645400000000000000000000000000000000001120403456000000000000000000001027724828000011204034560000000000000000000000000000001557112040345600000000001036066908000000000000001120403456000000000010386304660000000000000011204034560000000000106040897000000000000000112040345600000000001060356961000000000000001120403456000000000000000000000000000000000010932242610000000000000000000000000000000000112040345600000000000000000000000000000000001120403456000000000000000000000000000000000011204034560000000000000000000000000000000000112040345600000000000000000000000000000000001120403456000000000000000000000000000000000011204034560000000000000000000000000000000000))
 (.node 1 (.leaf 11204034560000000000000000000000000000000000112040345600000000001016189262106702514400001120403456000000000000000000001052389746000011204034561011424533000000000010486081550000112040345600000000000000000000106421818100001120403456000000000000000000000000000000000011204034560000000000000000000000000000000000112040345600000000000000000000000000000000001120403456000000000000000000000000000000000011204034560000000000000000000000000000000000112040345600000000000000000000000000000000001120403456000000000000000000000000000000000011204034560000000000000000000000000000000000112040345600000000000000000000000000000000001120403456000000000000000000001066778004155811204034560000000000000000000000000000000000)
 (.leaf 11204034560000000000000000000010145995960000112040345600000000000000000000103370614700001120403456000000000010168871941043391667000011204034560000000000104562992110418993210000112040345600000000000000000000000000000015591120403456000000000010371943370000000000156011204034560000000000102522211500000000001561112040345600000000001066080508000000000015621120403456000000000000000000000000000000000011204034560000000000000000000000000000000000112040345600000000000000000000104754498900001120403456000000000010409255900000000000000011204034561049083377000000000000000000000000112040345600000000001056461292000000000000001120403456000000000000000000000000000000000011204034560000000000000000000000000000000000))))
 (.node 4 (.node 2 (.node 1 (.leaf 11204034560000000000000000000000000000000000112040345600000000000000000000000000000000001120403456000000000000000000000000000000000011204034560000000000000000000000000000000000112040345600000000000000000000000000000000001120403456000000000000000000000000000000000011204034560000000000000000000000000000000000112040345600000000000000000000000000000000001120403456000000000000000000000000000000000011204034560000000000000000000000000000000000112040345600000000000000000000000000000000001120403456000000000000000000000000000000000011204034560000000000000000000000000000000000112040345600000000000000000000103088839100001120403456000000000000000000001041512970000011204034560000000000000000000010274160100000)
 (.leaf 11204034560000000000000000000000000000000000112040345600000000000000000000104312697900001120403456000000000000000000000000000000000011204034560000000000000000000010326008390000112040345600000000000000000000103573953500001120403456000000000000000000001048326687000011204034560000000000000000000010215036230000112040345600000000000000000000000000000000001120403456000000000000000000000000000000000011204034560000000000000000000000000000000000112040345600000000000000000000000000000000001120403456000000000000000000001049330562156311204034560000000000109765439010372753491564112040345600000000000000000000000000000000001120403456000000000000000000001035303780000011204034560000000000000000000000000000000000))
 (.node 1 (.leaf 11185684481047566213000000000010707376780000111044198400000000000000000000102909782900001082206223000000000000000000000000000000000010863247360000000000000000000000000000000000110755840000000000000000000000000000000000001070222887000000000000000000000000000000000010994319360000000000000000000000000000000000111673344000000000000000000000000000000000001119354880000000000000000000001077398152000011193548801068759863103849624910799576551565112040345600000000000000000000000000000015661087706004000000000000000000000000000000000010875702140000000000000000000000000000000000111791308800000000000000000000103739469600001120403456000000000000000000000000000000000011204034560000000000000000000000000000001567)
 (.leaf 11204034560000000000110215613610492014811568112040345600000000001081495834104420259815691120403456000000000010914251150000000000157011204034560000000000110065777410699801621571112040345600000000001084185641000000000000001120403456000000000010899458880000000000000011204034560000000000000000000000000000000000112040345600000000001080034958000000000000001120403456000000000000000000000000000000000011204034560000000000000000000010430402000000112040345600000000000000000000103404976700001120403456000000000000000000000000000000000011204034560000000000000000000010370712410000112040345600000000001083257651102966616900001120403456000000000010741427991032327886157211204034560000000000103642929600000000000000)))
 (.node 2 (.node 1 (.leaf 11204034560000000000107330142200000000001573112040345600000000001066110707102272538400001120403456000000000010902384411030912784000011204034560000000000103565083310274538930000112040345600000000001106978800106837570400001120403456000000000011080205601058461473000011204034560000000000109541201010578184520000112040345600000000001107683626105687499600001120403456000000000000000000000000000000000011204034561025469881000000000000000000000000112040345600000000000000000000104331756200001120403456000000000000000000001043645635000011204034560000000000000000000010258187310000112040345610606150791074050525000000000000001120403456000000000000000000000000000000000011204034560000000000000000000000000000001574)
 (.leaf 11204034560000000000110801175210434586320000112040345600000000001105099961106760118415751120403456000000000010834679961057722548157611204034560000000000000000000000000000001577112040345600000000001082516308103467975615781120403456000000000010729381951072368776157911204034560000000000000000000010324871820000112040345600000000001091465799000000000015801120403456000000000010632342541035493248158111204034560000000000110598160410641323631582112040345600000000001107561677106263923615831120403456000000000011078982961065717420158411204034560000000000110784654910682271471585107609403200000000000000000000000000000000001120403456000000000000000000001059532982158611204034560000000000000000000000000000000000))
 (.node 1 (.leaf 11204034560000000000000000000000000000000000112040345600000000000000000000000000000015871120403456000000000000000000001050832491158811204034561044697645000000000010329513790000112040345600000000000000000000105645053700001120403456000000000000000000000000000000158911204034560000000000000000000000000000001590112040345600000000000000000000000000000015911120403456000000000000000000000000000000000011167334400000000000000000000000000000001592112040345600000000000000000000105135021015931057072267000000000000000000000000000000000010654376050000000000000000000000000000000000110362624000000000000000000000106356947000001120403456000000000000000000001077850659000011204034560000000000000000000010297203741594)
 (.leaf 11204034560000000000000000000010475405720000103841773100000000000000000000000000000000001077936128000000000000000000000000000000000011083448320000000000000000000010644915100000112040345600000000000000000000000000000000001120403456000000000000000000000000000000000011204034560000000000000000000000000000000000112040345600000000000000000000102907445915951120403456000000000000000000001037388675159611204034560000000000000000000010730140080000106953183300000000000000000000000000000000001044179833000000000000000000000000000000000010089817700000000000000000000000000000000000107866312700000000000000000000102614007400001077936128000000000000000000000000000000000011204034560000000000000000000010584704400000)))))
 (.node 8 (.node 4 (.node 2 (.node 1 (.leaf 11204034560000000000000000000000000000000000112040345600000000000000000000103831751700001120403456000000000000000000001028345866159711204034560000000000000000000000000000001598112040345600000000001035409241000000000000001120403456000000000010459855980000000000000011204034560000000000104187182400000000000000112040345600000000000000000000000000000000001120196978000000000000000000000000000000000011190216820000000000000000000000000000000000112040345600000000000000000000000000000000001120403456000000000000000000000000000000000011204034560000000000000000000000000000000000112040345610288948490000000000000000000000001120403456000000000000000000000000000000000011204034560000000000000000000000000000000000)
 (.leaf 11204034560000000000000000000000000000000000112040345600000000000000000000000000000000001120403456000000000000000000000000000000000011204034560000000000000000000000000000000000112040345600000000000000000000000000000000001120403456000000000000000000000000000000000011204034560000000000000000000000000000000000112040345600000000000000000000000000000000001120403456000000000000000000000000000000000011204034560000000000000000000000000000000000112040345600000000001042180525000000000000001120403456000000000010607059270000000000000011204034560000000000105034096310204809320000112040345600000000001017370378102572561100001120403456000000000010300271100000000000000011204034560000000000000000000000000000000000))
 (.node 1 (.leaf 11204034560000000000104193893300000000000000112040345600000000001044744084000000000000001120403456000000000010251147410000000000159911204034560000000000104917326910301590920000112040345600000000000000000000103578143000001120403456000000000010301344840000000000000011204034560000000000103409390700000000000000112040345600000000001016833507000000000000001120403456000000000000000000000000000000000011204034560000000000101683350700000000000000112040345600000000000000000000000000000000001120403456000000000000000000000000000000000011204034560000000000000000000000000000000000112040345600000000001035959534000000000000001120403456000000000000000000000000000000000011204034560000000000000000000000000000000000)
 (.leaf 11204034560000000000000000000000000000000000112040345600000000000000000000000000000000001120403456000000000000000000000000000000000011204034560000000000000000000000000000000000112040345600000000000000000000000000000000001120403456000000000000000000000000000000000011204034560000000000000000000000000000000000112040345600000000000000000000000000000000001120403456000000000000000000000000000000000011204034560000000000000000000000000000000000112040345600000000000000000000000000000000001120403456000000000000000000000000000000000011204034560000000000000000000000000000000000112040345600000000000000000000000000000000001120403456000000000000000000001043840224000011204034560000000000000000000010368758250000)))
 (.node 2 (.node 1 (.leaf 11204034560000000000000000000010304542940000112040345600000000000000000000000000000000001120403456000000000000000000001045249722000011204034560000000000000000000000000000000000112040345600000000000000000000000000000000001120403456000000000000000000001036099884000011204034560000000000000000000010298919680000112040345600000000000000000000000000000000001120403456000000000000000000000000000000000011204034560000000000000000000000000000000000112040345600000000000000000000000000000000001120403456000000000000000000000000000000160011204034560000000000000000000000000000001601112040345600000000000000000000105806229716021120403456000000000000000000001038668109000011204034560000000000000000000000000000000000)
 (.leaf 11204034561066090172109994463700000000000000112040345600000000001082733992105318305500001120403456000000000000000000001024081180160311156848640000000000000000000000000000000000108632473600000000000000000000000000000000001105199104000000000000000000000000000000000011167334400000000000000000000000000000001604110519910400000000000000000000102824000516051086324736000000000000000000001041030953160611020533760000000000000000000000000000000000111568486400000000000000000000000000000016071113587712000000000000000000000000000000160811204034560000000000000000000000000000000000112040345600000000001083035353107389199700001120403456000000000011031044161053483357160911204034560000000000109770388310487227030000))
 (.node 1 (.leaf 11204034560000000000108266436710456507420000112040345600000000000984245443000000000000001120403456000000000010619877060000000000000011204034560000000000000000000000000000001610112040345600000000000000000000000000000000001120403456000000000000000000001029569949000011204034560000000000000000000010339985900000112040345610426404891065958035000000000016111120403456000000000010752916190000000000161211204034560000000000108104872100000000000000112040345600000000001068156689104221354300001120403456000000000010909052311050627486000011204034560000000000000000000010349252020000112040345610371540711066988995104237863116131120403456000000000011012887021069033779000011204034560000000000110715385910469050160000)
 (.leaf 11204034560000000000105236429500000000000000112040345600000000000000000000000000000000001120403456000000000000000000001043492603000011204034561061643086000000000000000000000000112040345610173446081048636398101956779600001120403456000000000000000000001057322293161411204034560000000000105207908310360737211615112040345600000000001095566780000000000016161120403456000000000011076669281071239054161711204034560000000000109502005210527617931618112040345600000000000000000000104979733600001120403456000000000000000000001040973245161911204034560000000000000000000010423908641620112040345600000000000998217508103613279716211120403456000000000010586976941027205299000011204034560000000000108275202800000000001622))))
 (.node 4 (.node 2 (.node 1 (.leaf 11204034560000000000000000000000000000000000112040345600000000000000000000000000000000001120403456000000000000000000000000000000162311204034561056706239000000000010246691990000112040345610355460091107947133105223823900001120403456000000000011067457011066128263162411204034560000000000110802194910585917441625112040345600000000001108078913107059689600001119354880000000000011047689781073490274162611171266560000000000110405253910740731180000110362624000000000001091228507105518099900001077936128000000000010633735051072869840000011204034560000000000000000000000000000001627112040345600000000000000000000000000000016281120403456000000000000000000001022764134000011204034560000000000000000000000000000001629)
 (.leaf 11204034560979413068000000000010285076320000112040345600000000000000000000000000000000001120403456000000000000000000001040464371163011204034560000000000000000000000000000001631112040345600000000000000000000000000000016321117913088000000000000000000001030982135163311020533760000000000000000000000000000000000111201484800000000000000000000000000000016341118175232000000000000000000000000000000000011204034560000000000000000000010493884600000112040345600000000000000000000102482502600001120403456000000000000000000000000000000000011204034560000000000000000000000000000001635112040345610586957820000000000000000000016361099431936000000000000000000000000000000000011193548800000000000000000000010351267281637))
 (.node 1 (.leaf 11204034560000000000000000000000000000001638112040345600000000000000000000000000000016391120403456000000000000000000000000000000000011204034560000000000000000000010520300311640112040345600000000000000000000000000000000001120403456000000000000000000001041655032164111204034560000000000000000000000000000001642112040345600000000000000000000102287641300001116340224000000000000000000000000000000000011196170240000000000000000000000000000000000112040345600000000000000000000000000000000001118961664000000000000000000000000000000000011189616640000000000000000000000000000000000111568486400000000000000000000000000000000001120403456000000000000000000000000000000000011204034560000000000000000000000000000000000)
 (.leaf 11204034560000000000000000000010340395981643112040345600000000001035959534000000000000001120403456000000000010251147410000000000000011204034560000000000000000000000000000000000111962356500000000000000000000104792978200001120403456000000000000000000000000000000000011204034560000000000000000000000000000000000112040345600000000000000000000000000000000001120403456000000000000000000000000000000000011204034560000000000000000000000000000000000112040345600000000000000000000000000000000001120403456000000000000000000000000000000000011204034560000000000000000000000000000000000112040345600000000000000000000000000000000001120403456000000000000000000000000000000000011204034560000000000000000000000000000000000)))
 (.node 2 (.node 1 (.leaf 11204034560000000000000000000000000000000000112040345600000000000000000000000000000000001120403456000000000000000000000000000000000011204034560000000000103032238900000000000000112040345600000000001016350324104945819300001120403456000000000010341475940000000000000011204034560000000000000000000010306718731644112040345600000000001041469171102028090600001120403456000000000000000000001049007230000011204034560000000000000000000010465800640000112040345600000000000000000000000000000000001120403456000000000000000000000000000000000011204034560000000000000000000000000000000000112040345600000000000000000000000000000000001120403456000000000000000000000000000000000011204034560000000000000000000000000000000000)
 (.leaf 11204034560000000000000000000000000000000000112040345600000000000000000000000000000000001120403456000000000000000000000000000000000011204034560000000000000000000000000000000000112040345600000000000000000000000000000000001120403456000000000000000000000000000000000011204034560000000000000000000000000000000000112040345600000000000000000000000000000000001120403456000000000000000000000000000000000011204034560000000000000000000000000000000000112040345600000000000000000000000000000000001120403456000000000000000000000000000000000011204034560000000000101688719400000000000000112040345600000000000000000000000000000000001120403456000000000000000000000000000000000011204034560000000000000000000000000000000000))
 (.node 1 (.leaf 11204034560000000000103532871000000000000000112040345600000000000000000000000000000000001120403456000000000000000000000000000000000011204034560000000000000000000000000000000000112040345600000000000000000000000000000000001120403456000000000000000000000000000000000011204034560000000000000000000010092593430000112040345600000000000000000000000000000000001120403456000000000000000000000000000000000011204034560000000000000000000000000000000000112040345600000000000000000000103903666800001120403456000000000000000000001007073082000011204034560000000000000000000010575953700000112040345600000000000000000000105149053700001120403456000000000010676651161053254331000011204034560000000000000000000010704773270000)
 (.leaf 11204034560000000000000000000000000000000000112040345600000000000000000000000000000016451120403456000000000000000000000000000000000011204034560000000000000000000000000000000000112040345600000000000000000000000000000000001120403456000000000000000000000000000000164611204034560000000000000000000000000000000000112040345600000000000000000000000000000016471120403456000000000000000000000000000000000011204034560000000000000000000000000000001648112040345600000000000000000000000000000000001120403456000000000010801515590000000000000011204034560000000000000000000010403356820000112040345600000000000000000000000000000000001120403456000000000000000000000000000000000011148984320000000000000000000010267344640000))))))
 (.node 16 (.node 8 (.node 4 (.node 2 (.node 1 (.leaf 11181752320000000000000000000000000000000000111122841600000000000000000000105074018716491086324736000000000000000000000000000000000010716657270000000000000000000000000000000000112040345600000000000000000000000000000000001120403456000000000010756170970000000000165011204034560000000000107218238210217722211651112040345600000000001095600859105089780816521120403456000000000010594090480000000000000011204034560000000000107227633410380449530000112040345600000000000000000000000000000000001120403456000000000000000000001026153488000011204034560000000000000000000000000000000000112040345600000000000000000000000000000016531120403456000000000000000000000000000000000011204034560000000000100617662010264205060000)
 (.leaf 11204034560000000000106639927500000000001654112040345600000000001049508813000000000000001120403456000000000010728501150000000000000011204034560000000000000000000000000000000000112040345600000000000000000000103638163000001120403456000000000000000000000000000000000011204034560000000000106491533110300151471655112040345600000000000000000000104218120300001120403456000000000000000000001018540426000011204034560000000000107883538700000000000000112040345600000000001076886713000000000000001120403456000000000000000000000000000000165611204034560000000000000000000010455064901657112040345600000000000000000000000000000000001120403456000000000011019639851058345853000011204034560000000000110419760910661496430000))
 (.node 1 (.leaf 11204034560000000000000000000010436274541658112040345600000000000000000000000000000016591120403456000000000010723811920000000000166011204034560000000000000000000010523364021661112040345600000000000000000000000000000016621120403456000000000010778585330000000000166311204034560000000000106157498700000000000000112040345600000000001107836430106575074516641120403456104944804611073719111067558490166511120148481025365460109908380910515958251666107793612800000000001066876587000000000000001093664768000000000010790031591058959214000010779361280000000000107180657200000000000000105970870600000000000000000000000000000000001120403456000000000000000000000000000000166711204034560000000000000000000000000000001668)
 (.leaf 11204034560000000000000000000000000000001669112040345600000000000000000000000000000016701120403456000000000000000000001054859132000011204034560000000000000000000010525845340000111935488000000000000000000000000000000000001115684864000000000000000000001045264865000010779361280000000000000000000000000000000000107793612800000000000000000000000000000000001109917696000000000000000000000000000000167110779361280000000000000000000000000000000000111201484800000000000000000000105495999900001120403456000000000000000000001044147564000011204034560000000000000000000000000000000000110677196800000000000000000000000000000000001077936128000000000000000000000000000000000011204034560000000000000000000000000000000000)))
 (.node 2 (.node 1 (.leaf 11204034560000000000000000000000000000001672112040345600000000000000000000000000000016731120403456000000000000000000000000000000000011200102400000000000000000000010735281810000112040345600000000000000000000000000000000001120403456000000000000000000000000000000000011189616640000000000000000000000000000000000111489843200000000000000000000107438017416741109917696000000000000000000001032371710167511075584000000000000000000000000000000001676110755840000000000000000000000000000000000001118568448000000000000000000000000000000000011204034560000000000000000000000000000000000111712665600000000000000000000000000000000001086324736000000000000000000000000000000000010740311050000000000000000000000000000000000)
 (.leaf 10706433240000000000000000000000000000000000110205337600000000000000000000000000000000001114898432000000000010563203630000000000000011204034560000000000000000000000000000001677112040345600000000000000000000107964870000001120403456000000000000000000000000000000000011204034560000000000103346308400000000000000112040345600000000000000000000000000000000001109497112000000000000000000000000000000000011204034560000000000000000000000000000000000112040345600000000000000000000000000000000001120403456000000000000000000000000000000000011204034560000000000000000000000000000000000112040345600000000000000000000000000000000001120403456000000000000000000000000000000000011204034560000000000000000000000000000000000))
 (.node 1 (.leaf 11204034560000000000000000000000000000000000112040345600000000000000000000104535921900001120403456000000000000000000000000000000000011204034560000000000000000000000000000000000112040345600000000000000000000000000000000001120403456000000000000000000000000000000000011204034560000000000000000000000000000000000112040345610472359700000000000103222161816781120403456000000000000000000001019706428000011204034560000000000000000000000000000001679112040345600000000000000000000103294322300001120403456000000000000000000000000000000168011204034560000000000000000000000000000000000112040345600000000000000000000101691429400001120403456000000000000000000000000000000000011204034560000000000000000000000000000000000)
 (.leaf 11204034560000000000000000000000000000000000112040345600000000000000000000000000000000001120403456000000000000000000000000000000000011204034560000000000000000000000000000000000112040345600000000000000000000000000000000001120403456107975824700000000000000000000000011204034560000000000000000000000000000000000112040345600000000000000000000000000000000001120403456000000000000000000000000000000000011204034560000000000000000000000000000000000112040345600000000000000000000000000000000001120403456000000000000000000000000000000000011204034560000000000000000000000000000000000112040345600000000000000000000000000000000001120403456000000000000000000000000000000000011204034560000000000000000000000000000000000))))
 (.node 4 (.node 2 (.node 1 (.leaf 11204034560000000000000000000000000000000000112040345600000000000000000000000000000000001120403456000000000000000000000000000000000011204034560000000000000000000000000000000000112040345600000000000000000000000000000000001120403456000000000000000000000000000000000011204034560000000000000000000000000000000000112040345600000000000000000000104078638400001120403456000000000000000000001055933261000011204034560000000000000000000010264613830000112040345600000000000000000000000000000016811120403456000000000000000000000000000000000011204034560000000000000000000000000000000000112040345600000000000000000000000000000000001120403456000000000000000000000000000000000011204034560000000000000000000000000000000000)
 (.leaf 11204034560000000000000000000010265228281682112040345600000000000000000000000000000000001120403456000000000000000000000000000000168311204034560000000000000000000000000000000000112040345600000000000000000000000000000000001105199104000000000000000000001060335504000011075584000000000000000000000000000000000000111044198400000000000000000000103810113400001008981770000000000000000000000000000000000011204034560000000000106832278300000000001684112040345600000000001086324946103776170900001120403456000000000010820952001033187387168511204034560000000000108436704500000000000000112040345600000000001093550473000000000000001120403456000000000010892945130000000000000011204034560000000000102677904110262185980000))
 (.node 1 (.leaf 11204034560000000000107970318800000000000000112040345610937550631032523560105478247500001120403456111373751110376104120000000000168611204034560000000000108347659410332339791687112040345600000000001071830899101405802916881120403456000000000010961297601028232099168911204034560000000000109992267010175725151690112040345600000000000000000000000000000000001120403456000000000000000000001026850637169111204034560000000000109138086510438206371692112040345600000000001071830060104766913600001120403456000000000010982012221017564165169311204034560000000000108706041710443898971694112040345600000000001083854291102551080600001120403456000000000010800437660000000000000011204034560000000000109294261400000000000000)
 (.leaf 11204034560000000000097671582800000000000000112040345600000000001076815829000000000000001120403456102439506600000000000000000000000011204034560000000000000000000010412573760000112040345600000000000000000000103095402016951120403456000000000000000000001048431266169611204034561062569423106962637310406741040000112040345600000000001061269642000000000016971120403456000000000000000000000000000000000011204034560000000000000000000010389513380000112040345600000000000000000000000000000016981120403456000000000000000000000000000000169911204034560000000000000000000000000000001700112040345600000000001048502180101045630717011120403456000000000010785971501049132489170211204034560000000000108184144410245225051703)))
 (.node 2 (.node 1 (.leaf 11204034561041985842105825645410409208881704112040345600000000001064229143000000000017051120403456000000000010693285770000000000000011204034560000000000103911365010371200021706112040345600000000000000000000103612122200001120403456104187551500000000001029661834000011204034560000000000108720616910408304631707112040345600000000001107207232104935503217081109917696000000000000000000000000000000000011091312640000000000108009619500000000000000109681049600000000001086439031104679744700001120403456000000000000000000001047927682000011204034560000000000000000000000000000001709112040345600000000000000000000000000000000001120403456000000000000000000000000000000171011204034560000000000000000000010359052380000)
 (.leaf 11204034560000000000000000000010402742871711112040345600000000000000000000105268752417121120403456000000000000000000000000000000171311204034560000000000000000000000000000001714112040345600000000000000000000104883770800001120403456000000000000000000001051122073000011204034560000000000000000000010475731401715112040345600000000000000000000000000000017161109131264000000000000000000001038339602171711204034560000000000000000000010191694191718111122841600000000000000000000103337429017191056717916000000000000000000000000000000000010377937530000000000000000000000000000000000111280128000000000000000000000103215568400001120403456000000000000000000000000000000172011204034560000000000000000000000000000000000))
 (.node 1 (.leaf 11204034560000000000000000000000000000001721111896166400000000000000000000099856855400001109917696000000000000000000000000000000000010863247360000000000000000000000000000000000112040345600000000000000000000096287978817221120403456000000000000000000001077912973172311204034560000000000000000000010826759650000112040345600000000000000000000000000000000001120403456000000000000000000001080301242000011083448320000000000000000000000000000000000110755840000000000000000000000000000000000001118568448000000000000000000001008701904172411156848640000000000000000000000000000001725109051904000000000000000000000000000000000001093664768000000000000000000001036117946000011156848640000000000000000000000000000001726)
 (.leaf 11193548800000000000000000000000000000001727112040345600000000000000000000000000000000001120403456000000000000000000001047378231172811204034560000000000000000000000000000001729112040345600000000000000000000103718133100001120403456000000000000000000000000000000173011204034560000000000000000000000000000000000112040345600000000000000000000000000000000001120403456000000000000000000000000000000000011204034560000000000000000000000000000000000112040345600000000000000000000000000000017311118175232000000000000000000000000000000000011196170240000000000000000000000000000000000112040345600000000001054874167000000000000001120403456000000000000000000000000000000000011204034560000000000000000000000000000000000)))))
 (.node 8 (.node 4 (.node 2 (.node 1 (.leaf 11204034560000000000000000000010459571391732112040345600000000001046871435000000000000001120403456000000000000000000000000000000173311204034560000000000000000000010275062920000112040345600000000000000000000106677892000001120403456000000000000000000001043697171000011189006630000000000000000000000000000000000107861938000000000000000000000000000000000001105557717000000000000000000000000000000000011204034560000000000000000000000000000000000112040345600000000000000000000000000000000001120403456000000000000000000000000000000000011204034561057020845000000000000000000000000112040345600000000000000000000000000000000001120403456000000000000000000000000000000000011204034560000000000000000000000000000000000)
 (.leaf 11204034560000000000000000000000000000000000112040345600000000000000000000000000000000001120403456000000000000000000000000000000000011204034561067521654000000000000000000000000112040345600000000000000000000000000000000001120403456000000000000000000000000000000000011204034560000000000000000000000000000000000112040345610434301590000000000102304991500001120403456000000000010360400641043056614000011204034560000000000000000000000000000000000112040345600000000000000000000104164368417341120403456000000000000000000000000000000000011204034560000000000102511474100000000000000112040345600000000000000000000105905343400001120403456000000000000000000001004897333000011204034560993222461000000000000000000000000))
 (.node 1 (.leaf 11204034561094963073000000000000000000000000112040345610788520090000000000000000000000001120403456000000000000000000000000000000000011204034560000000000000000000000000000000000112040345600000000000000000000000000000000001120403456000000000000000000000000000000000011204034560000000000000000000000000000000000112040345600000000000000000000000000000000001120403456000000000000000000000000000000000011204034560000000000000000000000000000000000112040345600000000000000000000000000000000001120403456000000000000000000000000000000000011204034560000000000000000000000000000000000112040345600000000000000000000000000000000001120403456000000000000000000000000000000000011204034560000000000000000000000000000000000)
 (.leaf 11204034560000000000000000000010404084430000112040345600000000000000000000105577653000001120403456000000000000000000001040655507173511204034560000000000000000000000000000000000112040345600000000000000000000000000000000001120403456000000000000000000000000000000173611171266560000000000000000000010338774370000112040345600000000000000000000000000000017371120403456000000000000000000000000000000000011204034560000000000000000000000000000000000112040345600000000000000000000000000000000001120403456106000266010591490021024273454173811204034560000000000000000000000000000000000112040345600000000000000000000105736162717391116733440000000000000000000001045462652000010994319360000000000000000000000000000000000)))
 (.node 2 (.node 1 (.leaf 10936647680000000000000000000000000000000000111817523200000000000000000000105751406117401118961664000000000000000000000989802642174111163402241088207135105150194610804497731742111411200000000000000000000000000000000000001120403456000000000000000000000000000000174311204034560000000000000000000000000000000000112040345600000000001064427114000000000000001120403456000000000010685635361045277015174411204034560000000000108050178410341972411745112040345600000000001083318049000000000017461120403456000000000010697740120000000000174711204034560000000000106844106310638857410000112040345610842361301055910999000000000000001120403456000000000010747358740000000000174811204034560000000000106387346610324614230000)
 (.leaf 11204034560000000000107022615810572772920000112040345610478745110000000000000000000000001120403456102697902500000000000000000000000011204034560000000000107349352100000000000000112040345600000000000000000000000000000017491120403456000000000010782704141042346579175011204034560000000000110261331610175283381751112040345600000000001095233438103985924617521120403456000000000010908466150000000000000011204034560000000000000000000000000000000000112040345600000000000000000000000000000000001120403456000000000000000000001037676751000011204034560000000000000000000010518406480000112040345600000000000000000000104640553000001120403456000000000000000000001029390565175311204034560000000000000000000000000000000000))
 (.node 1 (.leaf 11204034560000000000000000000010392520101754112040345600000000000000000000102671621800001120403456000000000000000000000000000000175511204034560000000000000000000000000000001756112040345600000000001080113391104783689300001120403456000000000000000000000000000000175711204034560000000000000000000010305290651758112040345610514724861064975729000000000000001120403456000000000010688512661041278803175911204034560000000000000000000000000000001760112040345610386489880000000000104277832917611118961664000000000011067403531077144833176210693393990000000000000000000010503555740000112040345600000000000000000000000000000017631120403456000000000000000000000000000000176411204034560000000000000000000000000000001765)
 (.leaf 11204034560000000000000000000000000000001766112040345600000000000000000000105081474917671120403456000000000000000000000000000000000011204034560000000000000000000010348571030000112040345600000000000000000000000000000017681120403456000000000000000000001057497575176910836068480000000000000000000000000000000000108399729600000000000000000000000000000000001120403456000000000000000000000000000000177011104419840000000000000000000000000000000000108449539000000000000000000000000000000000001118568448000000000000000000001016182018000011204034560000000000000000000010552300730000109943193600000000000000000000106150306900001112801280000000000000000000000000000000000011185684480000000000000000000010253311670000))))
 (.node 4 (.node 2 (.node 1 (.leaf 10779361280000000000000000000000000000000000108632473600000000000000000000103698338000001118175232000000000000000000000000000000000011204034560000000000000000000000000000000000112040345600000000000000000000103132791300001113587712000000000000000000001017754697000011104419840000000000000000000000000000000000109366476800000000000000000000000000000000001099431936000000000000000000001034106685000011075584000000000000000000000010406437610000111896166400000000000000000000000000000017711117519872000000000000000000000000000000000011196170240000000000000000000000000000001772112040345600000000000000000000000000000017731120403456000000000000000000000000000000177411204034560000000000000000000000000000001775)
 (.leaf 11204034560000000000000000000000000000001776112040345600000000000000000000000000000017771120403456000000000000000000000000000000177811204034560000000000000000000000000000001779112040345600000000001033516771000000000000001120403456000000000000000000000000000000000011204034560000000000000000000000000000000000112040345600000000001041905379000000000017801120403456000000000000000000000000000000000011204034560000000000000000000010238218781781112040345600000000000000000000104007701117821120403456000000000000000000000000000000000011204034560979413068000000000010379550950000110217931000000000000000000000103653090300001120395723000000000000000000000000000000000011204034560000000000000000000000000000000000))
 (.node 1 (.leaf 11204034560000000000000000000000000000000000112040345600000000000000000000000000000000001120403456000000000000000000000000000000000011204034560000000000000000000000000000000000112040345600000000000000000000000000000000001120403456000000000000000000000000000000000011204034560000000000000000000000000000000000112040345600000000000000000000000000000000001120403456000000000000000000000000000000000011204034560000000000000000000000000000000000112040345600000000001041569835000000000000001120403456000000000000000000000000000000000011204034560000000000000000000010433105260000112040345600000000000000000000000000000000001120403456000000000000000000000000000000000011204034560000000000000000000010660375610000)
 (.leaf 11204034560000000000101737037810388110461783112040345600000000001016887194000000000017841120403456000000000010655251820000000000000011204034560000000000105970936100000000000000112040345600000000001033597302000000000000001120403456000000000000000000000000000000000011204034560000000000000000000000000000000000112040345600000000000000000000000000000000001120403456000000000000000000000000000000000011204034560000000000000000000010497490330000112040345600000000000000000000000000000000001120403456000000000000000000000000000000000011204034560000000000000000000000000000000000112040345600000000000000000000000000000000001120403456000000000000000000000000000000000011204034560000000000000000000000000000000000)))
 (.node 2 (.node 1 (.leaf 11204034560000000000000000000000000000000000112040345600000000000000000000000000000000001120403456000000000000000000000000000000000011204034560000000000000000000000000000000000112040345600000000000000000000000000000000001120403456000000000000000000000000000000000011204034561065912946000000000010452088850000112040345610538371670000000000099485962500001120403456106607988800000000000000000000000011204034560000000000000000000010344594090000112040345610847875380976715828000000000017851120403456000000000000000000001069920035000011204034560000000000000000000000000000000000112040345600000000000000000000104162380500001120403456104320400310109145060000000000178611204034560000000000000000000000000000001787)
 (.leaf 11204034560000000000000000000000000000001788107793612800000000000000000000000000000000001120403456000000000000000000000000000000178911204034560000000000000000000000000000001790112040345610676518291034617356000000000017911120403456000000000000000000000000000000179211204034560000000000000000000000000000000000112040345600000000000000000000000000000017931120403456000000000000000000000000000000000011181752320000000000000000000010229733550000110913126400000000000000000000105087172817941064396747000000000000000000000000000000000011204034560000000000000000000010756091861795112040345600000000000000000000000000000017961112801280000000000000000000000000000000179710333083310000000000000000000000000000000000))
 (.node 1 (.leaf 11171266560000000000000000000000000000000000112040345600000000000000000000000000000000001120403456000000000000000000000000000000179811204034560000000000109024305510266285261799112040345611041193961066062892108181929618001120403456000000000010674436570000000000000011204034560000000000000000000000000000000000112040345600000000000000000000000000000000001120403456108456086810717369470000000000000011204034561093176643100758590610538832420000112040345600000000001066855616102420042900001120403456000000000000000000000000000000000011204034560000000000000000000010317234561801112040345600000000000000000000103384744118021120403456000000000000000000000000000000000011204034560994845959000000000010205752800000)
 (.leaf 11204034560000000000000000000000000000000000112040345600000000000000000000000000000000001120403456000000000010734071191026103341180311204034560000000000108505428100000000000000112040345600000000001052850835000000000000001120403456000000000010847057350000000000000011204034560000000000000000000000000000000000112040345600000000000000000000103590338500001120403456000000000000000000001038317950000011204034560000000000000000000000000000001804112040345600000000000000000000103324352418051120403456107258081510747597821053675487000011204034560000000000000000000000000000001806112040345600000000000000000000000000000000001120403456000000000000000000000000000000000011204034560000000000000000000010425916730000)))))))
 (.node 32 (.node 16 (.node 8 (.node 4 (.node 2 (.node 1 (.leaf 11204034560000000000000000000000000000001807112040345600000000000000000000000000000018081120403456000000000000000000001038437271180911204034560000000000000000000000000000001810112040345600000000000000000000000000000018111120403456000000000000000000000000000000181211204034561045756488000000000000000000001813112040345600000000000000000000000000000018141120403456000000000010506530190000000000181511204034561057795298108373118800000000000000112040345600000000001100396102000000000000001120403456099195544610922434230000000000181611200102401069153968109754638700000000000000112040345610522747721108352015000000000000001114112000105635163611058017210000000000000010688980740000000000000000000000000000000000)
 (.leaf 11196170240000000000000000000000000000000000112040345600000000000000000000000000000000001120403456000000000000000000001044646133000011204034560000000000000000000000000000001817109051904000000000000000000000000000000000001114112000000000000000000000000000000000000011120148480000000000000000000000000000000000108632473600000000000000000000000000000000001102053376000000000000000000001023975057000011200102400000000000000000000010651154630000112040345600000000000000000000000000000018181108344832000000000000000000001029713490000010417616320000000000000000000000000000000000110913126400000000000000000000000000000000001120403456000000000000000000000000000000000009499456800000000000000000000000000000000000))
 (.node 1 (.leaf 11036262400000000000000000000000000000000000110519910400000000000000000000000000000000001120403456000000000000000000000000000000181911204034560000000000000000000000000000000000112040345600000000000000000000000000000018201077936128000000000000000000000000000000000010905190400000000000000000000000000000000000110048051200000000000000000000000000000000001118961664000000000000000000000000000000182111204034560000000000000000000000000000001822112040345600000000000000000000105740761700001120403456000000000000000000000000000000000011204034560000000000000000000000000000001823112040345600000000000000000000000000000000001120403456000000000000000000000000000000000011204034560000000000000000000000000000001824)
 (.leaf 11204034560000000000000000000000000000000000112040345600000000000000000000000000000000001120403456000000000000000000001033058095000011204034560000000000000000000010691205870000112040345600000000000000000000000000000018251120403456000000000000000000001042751026000011204034560000000000000000000010431270840000112040345600000000000000000000000000000000001117385012105377029300000000001043291125000011192491700000000000000000000000000000000000112040345600000000000000000000101967499800001120403456000000000000000000000000000000000011204034560000000000000000000000000000000000112040345610585046890000000000000000000000001120403456000000000000000000001057818483000011204034560000000000000000000000000000000000)))
 (.node 2 (.node 1 (.leaf 11204034561058999785000000000010465715940000112040345600000000000000000000000000000000001120403456000000000000000000000000000000182611204034560000000000000000000010300490391827112040345600000000001035516615000000000000001120403456000000000010301613280000000000000011204034560000000000101683350700000000000000112040345600000000001028309123000000000000001120403456000000000010429724100000000000000011204034560000000000101635032400000000000000112040345600000000001038549936000000000000001120403456000000000000000000000000000000000011204034560000000000000000000000000000000000112040345600000000000000000000000000000000001120403456000000000000000000000000000000000011204034560000000000000000000000000000000000)
 (.leaf 11204034560000000000000000000000000000000000112040345600000000000000000000000000000000001120403456000000000000000000000000000000000011204034560000000000103002711000000000000000112040345600000000000000000000000000000000001120403456000000000000000000000000000000000011204034560000000000000000000000000000000000112040345600000000000000000000000000000000001120403456000000000000000000000000000000000011204034560000000000000000000010632452930000112040345600000000000000000000103338602400001120403456000000000000000000000000000000000011204034560000000000000000000000000000000000112040345600000000000000000000000000000000001120403456000000000000000000001027841571000011204034560000000000000000000000000000000000))
 (.node 1 (.leaf 11204034560000000000000000000010555242000000112040345600000000000000000000000000000000001120403456000000000000000000001059336475000011204034560000000000000000000010455614050000112040345600000000000000000000000000000000001120403456000000000000000000000000000000000011204034560000000000000000000000000000000000112040345600000000000000000000000000000000001120403456000000000000000000000000000000000011204034560000000000000000000000000000000000112040345600000000000000000000000000000000001120403456000000000000000000001059747722182811179130880000000000000000000010485530901829109681049600000000000000000000000000000000001090519040000000000000000000000000000000000011204034560000000000000000000010667800641830)
 (.leaf 11189616640000000000000000000010579160421831111411200000000000000000000000107106677200001116078080000000000000000000000000000000183211204034560000000000000000000000000000000000112040345600000000000000000000105833227500001120403456000000000000000000001064958906183311204034560000000000000000000010268417041834111961702400000000000000000000000000000000001076070250000000000000000000000000000000000011148984320000000000000000000000000000000000112040345600000000000000000000000000000018351120403456000000000000000000000000000000183611204034560000000000107812948510272916271837112040345600000000001082191249104865548318381120403456000000000010802295731029729052183911204034560000000000108819120110452797551840))))
 (.node 4 (.node 2 (.node 1 (.leaf 11204034560000000000106755354810596919351841112040345600000000000000000000000000000000001120403456000000000010398115821015317366000011204034560000000000000000000000000000000000112040345600000000000000000000000000000000001120403456000000000000000000000000000000184211204034560000000000000000000010345218210000112040345600000000000000000000000000000000001120403456000000000000000000000000000000184311204034560000000000000000000000000000000000112040345600000000000000000000000000000000001120403456000000000010767818561023060368184411204034560000000000104879074810230359350000112040345600000000001003384891000000000018451120403456000000000000000000001050314847184611204034560000000000109954151210199919331847)
 (.leaf 11204034560000000000105466612900000000000000112040345600000000000000000000000000000000001120403456000000000010489149001038472571000011204034560000000000098768141700000000000000112040345600000000001078397921101723009300001120403456000000000010880901190000000000000011204034560000000000103582531600000000000000112040345600000000000000000000000000000000001120403456000000000000000000000000000000000011204034560000000000000000000000000000000000112040345600000000000000000000104064121000001120403456105245536210656292011017743356000011204034560000000000000000000010512205761848112040345600000000000000000000104683747818491120403456000000000010445561791053058985185011204034560000000000000000000009957376491851))
 (.node 1 (.leaf 11204034560000000000000000000000000000001852112040345610493691601060434136000000000018531120403456103228196800000000000000000000185411204034560000000000000000000000000000000000112040345600000000001084906852000000000018551120403456000000000010363085000000000000000011204034560000000000110762296600000000001856112001024010569268591107859735106771940200001113587712000000000011062963861055236907185711160780800000000000110732281110589910800000108570878100000000000000000000101672090000001114898432000000000000000000000000000000000011204034560000000000000000000010574095051858112040345600000000000000000000000000000018591120403456000000000000000000001049021768186011204034560000000000000000000010216302641861)
 (.leaf 10863247360000000000000000000000000000000000107793612800000000000000000000000000000000001099431936000000000000000000000000000000000011036262400000000000000000000010253215720000110205337600000000000000000000100852536900001120403456000000000000000000000000000000186210618656020000000000000000000000000000000000111896166400000000000000000000104435068818631120403456000000000000000000001053490630186410779361280000000000000000000000000000000000110205337600000000000000000000000000000000001118568448000000000000000000001074176768000011204034560000000000000000000010267500180000112040345600000000000000000000000000000000001118961664000000000000000000000000000000000011051991040000000000000000000000000000000000)))
 (.node 2 (.node 1 (.leaf 10863247360000000000000000000000000000000000109051904000000000000000000000000000000000001112014848000000000000000000000000000000000011204034560000000000000000000000000000001865112040345600000000000000000000000000000000001120403456000000000000000000000000000000000011204034560000000000000000000010514783571866112040345600000000000000000000101924335000001120403456000000000000000000000000000000186711204034560000000000000000000010501090070000112040345600000000000000000000105936627500001120403456000000000000000000001077390262000011204034560000000000000000000000000000000000112040345600000000000000000000000000000000001120403456000000000000000000001027320327000011204034560000000000000000000000000000000000)
 (.leaf 11204034560000000000000000000000000000001868112040345600000000000000000000000000000018691120403456000000000000000000000000000000000011204034560000000000000000000010238938070000112040345600000000001016833507000000000018701120403456000000000000000000001024961226000011204034560000000000102511474100000000000000112040345600000000000000000000000000000000001105147934000000000000000000001035232726000011204034560000000000000000000000000000000000112040345600000000000000000000000000000000001120403456000000000000000000000000000000000011204034561067807521000000000000000000000000112040345600000000000000000000000000000000001120403456000000000000000000000000000000000011204034560000000000105291458800000000000000))
 (.node 1 (.leaf 11204034560000000000103053713710432228450000112040345600000000000000000000000000000000001120403456000000000000000000000000000000187111204034560000000000000000000000000000000000112040345600000000000000000000000000000000001120403456000000000000000000000000000000000011204034560000000000000000000000000000000000112040345600000000000000000000000000000000001120403456000000000000000000000000000000000011204034560000000000000000000000000000000000112040345600000000000000000000000000000000001120403456000000000000000000000000000000000011204034560000000000000000000000000000000000112040345600000000000000000000000000000000001120403456000000000000000000000000000000000011204034560000000000000000000000000000000000)
 (.leaf 11204034560000000000000000000000000000000000112040345600000000000000000000000000000000001120403456109002758900000000000000000000000011204034560000000000000000000000000000000000112040345600000000000000000000000000000000001120403456000000000000000000000000000000000011204034560000000000000000000000000000000000112040345600000000000000000000000000000000001120403456000000000000000000000000000000000011204034560000000000000000000000000000000000112040345600000000000000000000000000000000001120403456000000000000000000000000000000000011204034560000000000000000000000000000000000112040345600000000000000000000000000000000001120403456000000000000000000000000000000000011204034560000000000000000000000000000000000)))))
 (.node 8 (.node 4 (.node 2 (.node 1 (.leaf 11204034560000000000000000000000000000000000112040345600000000000000000000106103868000001120403456000000000000000000000000000000000011204034561011347223000000000010287553810000112040345600000000000000000000000000000000001120403456000000000000000000000000000000000011204034560000000000000000000000000000000000112040345600000000000000000000000000000000001120403456000000000000000000001041737962187211163402240000000000000000000010328775770000107793612800000000001025222115000000000000001118175232000000000010386975751046131528000011099176960000000000000000000010422990100000108429093900000000000000000000104047803300001066047457000000000000000000000000000000000011051991040000000000000000000010559676861873)
 (.leaf 11204034560000000000000000000000000000000000111935488000000000000000000000097477703600001100480512000000000000000000001054194242000011204034560000000000000000000000000000001874112040345600000000000000000000000000000018751116733440000000000000000000000000000000000010994319360000000000000000000000000000000000111935488000000000000000000000000000000018761120403456000000000010774965651059124735187711204034560000000000107389617410539020271878112040345610909840461069010649000000000000001120403456000000000000000000000000000000000011204034561062089561000000000000000000001879112040345600000000000000000000000000000000001120403456000000000000000000001016710980000011204034561090872372107007600200000000000000))
 (.node 1 (.leaf 11204034560000000000105471310600000000000000112040345600000000000000000000000000000018801120403456000000000000000000001017965427000011204034560000000000000000000000000000000000112040345610551527360000000000102617654400001120403456000000000010678203060000000000188111204034560000000000107491790700000000001882112040345600000000001069466151000000000018831120403456000000000010753520171039621994188411204034560000000000108813898210250638871885112040345600000000001076622472000000000000001120403456000000000010659613900000000000000011204034560000000000108530342300000000000000112040345600000000000000000000105748176718861120403456000000000000000000001034685902000011204034560000000000106336679410249061101887)
 (.leaf 11204034560000000000102672535410444011751888112040345600000000000000000000104600691818891120403456000000000000000000001036811415000011204034560000000000104358981110565358160000112040345600000000000000000000104957425218901120403456000000000010672792401032697174189111204034560000000000107751879500000000001892112040345600000000000000000000000000000000001120403456000000000000000000000000000000189311204034560000000000000000000000000000001894112040345600000000001067074558000000000000001120403456000000000010177461880000000000000011204034560000000000000000000000000000000000112040345600000000000000000000000000000018951120403456106436161511075182401042298489000011204034561071064071110792249200000000000000)))
 (.node 2 (.node 1 (.leaf 11156848640000000000110305266900000000000000109068292200000000000000000000000000000000001099553047000000000000000000000000000000000011204034560000000000000000000010390082731896112040345600000000000000000000105667983518971120403456000000000000000000000000000000189811204034560000000000000000000000000000001899112040345600000000000000000000104432687200001120403456000000000000000000000000000000000011204034560000000000000000000010374186121900112040345600000000000000000000104976348800001120403456000000000000000000000000000000000011193548800000000000000000000010558625571901109943193600000000000000000000000000000000001099431936000000000000000000001037616572000010589210160000000000000000000000000000000000)
 (.leaf 10994319360000000000000000000010434795970000102589811600000000000000000000000000000000001049770706000000000000000000000000000000000010461355860000000000000000000000000000000000107294935200000000000000000000000000000000001059871076000000000000000000000000000000000010905190400000000000000000000000000000000000111673344000000000000000000000000000000000001108344832000000000000000000000000000000000010863247360000000000000000000000000000000000110755840000000000000000000000105563837600001120403456000000000000000000001078759100190211204034560000000000000000000000000000001903111568486400000000000000000000000000000000001109917696000000000000000000000000000000000010968104960000000000000000000000000000000000))
 (.node 1 (.leaf 10863247360000000000000000000000000000000000108632473600000000000000000000000000000000001096810496000000000000000000000000000000000011204034560000000000000000000000000000000000112040345600000000000000000000000000000000001120403456000000000000000000000000000000000011204034560000000000000000000010480182810000112040345600000000000000000000000000000000001120403456000000000000000000000000000000000011204034560000000000000000000000000000001904112040345600000000000000000000107594981919051120403456000000000000000000001082537441190611204034560000000000000000000010226309520000112040345600000000000000000000000000000000001120403456000000000000000000000000000000190711204034560000000000000000000000000000000000)
 (.leaf 11204034560000000000000000000000000000000000112040345600000000000000000000000000000000001120403456000000000000000000000000000000000011204034560000000000000000000000000000000000112040345600000000000000000000000000000000001120403456000000000000000000000000000000000011204034560000000000000000000010428498340000112040345600000000000000000000000000000000001120403456000000000000000000000000000000000011204034560000000000000000000000000000000000112040345600000000001016833507000000000000001120403456000000000010653716710000000000000011204034560000000000104191880100000000000000112040345600000000000000000000000000000000001120403456000000000000000000001024426225190811204034560000000000000000000000000000001909))))
 (.node 4 (.node 2 (.node 1 (.leaf 11204034560000000000000000000010062863260000112040345600000000000000000000105431989400001120403456000000000000000000000000000000000011204034560000000000000000000010117297870000112040345600000000000000000000000000000000001120403456000000000000000000001051098198000011204034560000000000000000000010261569420000112040345600000000000000000000104467056000001120403456000000000000000000000000000000000011204034560000000000000000000000000000000000112040345600000000000000000000000000000000001120403456000000000010251147410000000000000011204034560000000000104892832200000000000000112040345600000000001025114741000000000000001120403456000000000000000000000000000000000011204034560000000000000000000000000000000000)
 (.leaf 11204034560000000000000000000000000000000000112040345600000000000000000000000000000000001120403456000000000000000000001058766372000011204034560000000000102508789810335270970000112040345600000000001016833507104302644700001120403456000000000000000000001064037224000011204034560000000000000000000000000000001910112040345600000000000000000000000000000000001120403456105734229700000000000000000000000011204034560000000000000000000000000000000000112040345600000000000000000000000000000000001120403456000000000000000000000000000000000011204034561076756799105886882210885129810000110519910400000000000000000000104042546600001090519040000000000000000000000000000000000011204034560000000000000000000000000000001911))
 (.node 1 (.leaf 11204034560000000000000000000000000000001912112040345600000000000000000000000000000019131120010240000000000000000000001027911819191411112284160000000000000000000000000000000000112040345600000000000000000000101225565019151090519040000000000000000000000000000000000011204034560000000000107332994310712716101916112040345610829714151091192121103616017019171120403456000000000010287923071015908433191811204034560000000000109796529310512709801919112040345600000000001092522659104397025419201120403456000000000000000000000000000000000011204034560000000000000000000000000000000000112040345600000000000000000000000000000000001120403456000000000000000000000000000000000011204034560000000000000000000010236983251921)
 (.leaf 11204034560000000000106222091010172686791922112040345600000000000000000000102354394900001120403456000000000010499248880000000000192311204034560000000000108394321000000000001924112040345600000000000000000000000000000000001120403456000000000010657432860000000000000011204034560000000000106945776200000000000000112040345600000000000000000000105183537719251120403456000000000010743260911032912020000011204034560000000000108459563410490702761926112040345600000000001075103715104125188119271120403456000000000010908591980000000000000011204034561039321822000000000010509993851928112040345610447126770000000000104087091019291120403456000000000000000000000000000000193011204034560000000000000000000000000000001931)))
 (.node 2 (.node 1 (.leaf 11204034560000000000000000000000000000000000112040345600000000000000000000000000000019321120403456000000000000000000000000000000000011204034560000000000000000000000000000001933112040345600000000000000000000104047556619341120403456108027109311021482721083512236000011204034561063979783110572307700000000000000111358771200000000001101292372000000000000001060331611000000000000000000000000000000000010960623370000000000000000000000000000000000109051904000000000000000000000000000000000001120403456000000000000000000000000000000193511204034560000000000000000000000000000001936112040345600000000000000000000102760627219371120403456000000000000000000000000000000193811204034560000000000000000000000000000001939)
 (.leaf 11204034560000000000000000000000000000001940110048051200000000000000000000000000000000001042903892000000000000000000000000000000000010905190400000000000000000000000000000000000110362624000000000000000000000000000000019411077936128000000000000000000000000000000000010855696560000000000000000000000000000000000110205337600000000000000000000000000000000001106771968000000000000000000000000000000000011128012800000000000000000000000000000000000111607808000000000000000000000000000000000001077936128000000000000000000000000000000000010863247360000000000000000000000000000000000110519910400000000000000000000000000000000001117519872000000000000000000000000000000000011163402240000000000000000000000000000001942))
 (.node 1 (.leaf 11135877120000000000000000000000000000000000111961702400000000000000000000107060909200001118175232000000000000000000000000000000194311083448320000000000000000000010481784880000108632473600000000000000000000000000000000001090519040000000000000000000000000000000000011067719680000000000000000000000000000000000111358771200000000000000000000000000000000001120403456000000000000000000000000000000000011204034560000000000000000000010279104651944112040345600000000000000000000106697266500001120403456000000000000000000000000000000000011204034560000000000000000000010459761391945112040345600000000000000000000106883365419461120403456000000000000000000000000000000000011204034561079481821000000000000000000000000)
 (.leaf 11204034561110084176102592004810577197450000112040345600000000001089231179000000000000001120403456000000000000000000001040497006194711204034560000000000000000000000000000000000112040345600000000000000000000000000000019481120403456000000000000000000000000000000194911204034560000000000000000000010460455341950112040345600000000000000000000099989704219511120403456000000000000000000000000000000000011204034560000000000000000000000000000001952112040345600000000000000000000000000000019531120403456000000000000000000001049096696000011204034560000000000000000000000000000000000112040345600000000000000000000000000000000001120403456000000000000000000000000000000195411204034560000000000000000000000000000000000))))))
 (.node 16 (.node 8 (.node 4 (.node 2 (.node 1 (.leaf 11204034560000000000000000000010307764960000111749605700000000000000000000103322264300001120403456000000000000000000001020993414000011204034560000000000000000000000000000000000112040345600000000000000000000105217312900001120403456000000000000000000000000000000000011204034561062981203000000000000000000000000112040345600000000000000000000000000000019551120403456000000000000000000000000000000000011204034560000000000000000000000000000000000112040345600000000000000000000000000000000001120403456106426088500000000000000000000000011204034560000000000000000000009850030551956112040345600000000001030188171000000000000001120403456000000000010437038961049428858000011204034560000000000104047596000000000000000)
 (.leaf 11204034560000000000000000000000000000000000112040345600000000000000000000000000000000001120403456000000000000000000000000000000000011204034560000000000000000000000000000000000112040345600000000000000000000000000000000001120403456000000000000000000000000000000000011204034560000000000000000000000000000000000112040345600000000000000000000105000285600001120403456000000000000000000000000000000000011204034560000000000000000000000000000000000112040345600000000000000000000000000000000001120403456106672670010552197780000000000195711204034560000000000000000000010438372960000112040345600000000000000000000000000000000001120403456000000000010359326901043004817000011204034560000000000000000000000000000000000))
 (.node 1 (.leaf 11204034560000000000000000000000000000000000112040345600000000000000000000000000000000001120403456000000000010168335070000000000000011204034560000000000000000000000000000000000112040345600000000001030215015102712391400001120403456104981627210251415850000000000000011204034560000000000000000000010466627590000112040345600000000000000000000000000000000001120403456000000000000000000001030175864000011204034560000000000000000000000000000000000112040345600000000000000000000100762103200001077936128105217974600000000001043183610000010629523130000000000000000000000000000000000110048051200000000000000000000000000000000001120010240000000000000000000001047706293195811200102401016817401000000000010685566161959)
 (.leaf 11204034561017239919000000000010480195810000112040345600000000000000000000102947436119601102053376000000000000000000001020626237000011020533760000000000000000000000000000000000107793612800000000000000000000000000000000001120403456000000000000000000000000000000196111204034560000000000000000000000000000001962107409842400000000000000000000000000000000001100480512000000000000000000000000000000196311204034560000000000108366596710442981511964112040345600000000001076251696103521527019651120403456000000000010776769200000000000196611204034560000000000109943319410541224691967112040345600000000001089751692104678879819681120403456000000000000000000001033915209000011204034560000000000107547658800000000000000)))
 (.node 2 (.node 1 (.leaf 11204034560000000000000000000000000000000000112040345600000000000000000000000000000019691120403456000000000010565518880000000000000011204034560000000000106432477310389421101970112040345600000000000000000000102596851600001120403456000000000000000000001031337707000011204034560000000000000000000000000000001971112040345600000000000000000000000000000000001120403456000000000000000000001019880951197211204034560000000000105254884510406745071973112040345600000000001056528400101871600019741120403456000000000010830764571043319031197511204034560000000000110146024900000000000000112040345600000000001075507626000000000000001120403456000000000010721899320000000000000011204034560000000000109571735600000000000000)
 (.leaf 11204034560000000000107611873610250063080000112040345600000000000000000000102357246719761120403456000000000000000000001034999744197711204034560000000000000000000010461638571978112040345600000000001078417634104505277300001120403456000000000010798403420000000000000011204034560000000000000000000000000000001979112040345600000000000000000000103535708919801120403456000000000000000000000000000000000011204034560000000000000000000010559695161981112040345610404640821051673074103075463219821120403456000000000011006472881040492589198311204034561050267210108441527900000000001984112040345600000000000000000000000000000019851120403456000000000000000000000000000000198611204034560000000000000000000000000000001987))
 (.node 1 (.leaf 11204034561055163977000000000000000000000000112040345610511073131095547696105790185000001120403456104874534911003642251077614062000011204034560000000000109172878210815424000000111856844800000000001085233378000000000000001077936128000000000000000000000000000000000010968340890000000000000000000010444219960000109943130600000000000000000000104056428700001114112000000000000000000000001034165864198811204034560000000000000000000010403797411989112040345600000000000000000000102946822319901120403456000000000000000000001046545432199111204034560000000000000000000000000000001992112040345600000000000000000000000000000000001120403456000000000000000000000000000000000011120148480000000000000000000010515074791993)
 (.leaf 10516220040000000000000000000000000000000000107793612800000000000000000000000000000000001120403456000000000000000000001042254345199411196170240000000000000000000010504972741995112040345600000000000000000000102931258619961120403456000000000000000000001050450296199711135877120000000000000000000000000000000000109366476800000000000000000000000000000000001086324736000000000000000000000000000000000010968104960000000000000000000000000000000000112040345600000000000000000000104442825019981119617024000000000000000000000000000000000011104419840000000000000000000000000000000000110677196800000000000000000000000000000000001096810496000000000000000000000000000000000011020533760000000000000000000000000000000000))))
 (.node 4 (.node 2 (.node 1 (.leaf 10936647680000000000000000000000000000000000109366476800000000000000000000000000000000001100480512000000000000000000000000000000000011204034560000000000000000000000000000000000112040345600000000000000000000107955219719991120403456000000000000000000001059467696200011204034560000000000000000000000000000002001112040345600000000000000000000000000000020021120403456000000000000000000001055556642200311204034560000000000000000000000000000000000112040345600000000000000000000000000000000001120403456000000000000000000001017911358200411204034560000000000000000000010637479640000112040345600000000000000000000000000000020051120403456000000000000000000000000000000000011204034560000000000000000000000000000000000)
 (.leaf 11204034560000000000000000000000000000000000112040345600000000000000000000000000000000001120403456000000000000000000001035140995000011204034560000000000000000000000000000002006112040345600000000000000000000000000000020071119939868108510140600000000001034039881000011204034560000000000000000000000000000000000112040345600000000000000000000000000000000001120403456000000000000000000001024429877000011204034560000000000000000000000000000000000112040345600000000000000000000000000000000001120403456000000000000000000001028113886000011204034560000000000000000000000000000000000112040345600000000000000000000000000000000001120403456000000000000000000001020587628000011204034561028242551000000000010566305810000))
 (.node 1 (.leaf 11204034560000000000104183827000000000000000112040345600000000000000000000103243483100001120403456000000000000000000000000000000000011204034560000000000000000000000000000000000112040345600000000000000000000000000000000001120403456000000000000000000000000000000000011204034560000000000000000000000000000000000112040345600000000000000000000000000000000001120403456000000000000000000000000000000000011204034560000000000000000000000000000000000112040345600000000000000000000000000000000001120403456000000000000000000000000000000000011204034560000000000000000000000000000000000112040345600000000000000000000000000000000001120403456000000000000000000000000000000000011204034560000000000000000000000000000000000)
 (.leaf 11204034560000000000000000000010268027240000112040345600000000001047629765000000000000001120403456000000000010505959770000000000000011204034560000000000000000000010450351090000112040345600000000001016887194000000000000001120403456000000000010252489590000000000000011204034560000000000000000000000000000000000112040345600000000000000000000000000000000001120403456000000000000000000001042990323000011204034560000000000000000000010618895230000112040345600000000000000000000000000000000001120403456000000000000000000000000000000000011204034560000000000000000000000000000000000112040345600000000000000000000000000000020081120403456000000000000000000000000000000000011204034560000000000000000000010312090340000)))
 (.node 2 (.node 1 (.leaf 11204034560000000000000000000010174179432009112040345600000000000000000000000000000000001100480512000000000000000000001048033758000011141120000000000000000000000010565524190000102487492100000000000000000000000000000000001105199104000000000000000000001041642401000010994319360000000000000000000000000000002010111856844800000000000000000000104107327520111090519040000000000000000000000000000000000010936647680000000000000000000000000000000000111961702400000000000000000000104869679320121120403456000000000010739108541042256107201311204034560000000000103589242510239557812014112040345600000000000000000000103221884800001120403456097943024800000000001049679267201511204034560000000000110368773910523639692016)
 (.leaf 11204034560000000000000000000000000000000000112040345600000000001074853734000000000000001120403456000000000010307518860000000000000011204034560000000000105013963700000000000000112040345600000000001049203468000000000000001120403456000000000010506395981033432920000011204034560000000000000000000000000000000000112040345600000000000000000000000000000000001120403456000000000000000000000000000000000011204034560000000000000000000000000000002017112040345600000000000000000000102068559120181120403456000000000010700911020000000000201911204034560000000000108434355710199249472020112040345600000000001087457827103068115920211120403456000000000010574293370000000000202211204034560000000000107205151910141107980000))
 (.node 1 (.leaf 11204034560000000000106326948600000000000000112040345600000000001064385171103002374600001120403456000000000000000000001032090675000011204034560000000000000000000010355625780000112040345600000000000000000000103790148520231120403456000000000000000000000000000000000011204034560000000000000000000000000000002024112040345600000000000000000000104474851820251120403456000000000000000000000000000000000011204034560000000000000000000000000000000000112040345600000000000000000000000000000000001120403456000000000000000000001028951186202611204034560000000000106373085900000000002027112040345610479547061091579570000000000000001120403456000000000010945576301050323228202811204034560000000000000000000000000000002029)
 (.leaf 11204034560000000000000000000010231923362030112040345600000000000000000000000000000000001120403456000000000000000000000000000000203111204034560000000000000000000010424961232032112040345600000000000000000000101341400420331120403456000000000000000000000000000000000011204034560000000000000000000000000000000000112040345600000000000000000000000000000020341120403456104805778510610397940000000000000011204034560000000000109152294710867836150000109681049600000000001084597941000000000000001053575577000000000000000000000000000000000010089817700000000000000000000000000000000000111568486400000000000000000000102068607120351120403456000000000000000000000000000000203611196170240000000000000000000000000000002037)))))
 (.node 8 (.node 4 (.node 2 (.node 1 (.leaf 11204034560000000000000000000010168714892038112040345600000000000000000000000000000020391120403456000000000000000000001028123540000011204034560000000000000000000000000000002040112040345600000000000000000000000000000000001120403456000000000000000000000000000000000010863247360000000000000000000000000000000000107793612800000000000000000000000000000000001077936128000000000000000000000000000000204111112284160000000000000000000000000000002042111358771200000000000000000000000000000020431077936128000000000010407846610000000000000010779361280000000000104916991300000000000000111935488000000000000000000000103056166920441120403456000000000000000000001042183580204511148984320000000000000000000000000000000000)
 (.leaf 11204034560000000000000000000010310689760000111712665600000000000000000000000000000000001102053376000000000000000000000000000000000010905190400000000000000000000000000000000000107793612800000000000000000000000000000000001100480512000000000000000000000000000000000010863247360000000000000000000000000000000000107793612800000000000000000000000000000000001106771968000000000000000000001065398346000011200102400000000000000000000010528519990000112040345600000000000000000000000000000020461120403456000000000000000000000000000000000011204034560000000000000000000010247129660000112040345600000000000000000000105926605520471120403456000000000000000000001060116028204811204034560000000000000000000010373864470000))
 (.node 1 (.leaf 11204034560000000000000000000010333295372049112040345600000000000000000000103267799320501120403456000000000000000000000000000000205111204034560000000000000000000000000000002052112040345600000000000000000000000000000020531120403456000000000000000000000000000000205411204034560000000000000000000000000000000000112040345600000000000000000000000000000000001120403456000000000000000000000000000000000011204034560000000000000000000000000000000000112040345600000000000000000000000000000000001120403456000000000000000000000000000000000011204034560000000000000000000000000000000000112040345600000000000000000000000000000000001120403456000000000000000000000000000000205511204034560000000000000000000000000000000000)
 (.leaf 11203442901097555338102037685510691001380000112040345600000000000000000000000000000000001120403456000000000000000000000000000000000011204034560000000000000000000000000000000000112040345600000000000000000000000000000000001120403456000000000000000000000000000000000011204034560000000000000000000000000000000000112040345600000000000000000000000000000000001120403456000000000000000000000000000000000011204034560000000000000000000000000000000000112040345600000000000000000000000000000000001120403456105148419600000000000000000000000011204034560000000000000000000000000000000000112040345610456052250000000000105099315300001120403456000000000010371540711074294418000011204034560000000000000000000010665842300000)))
 (.node 2 (.node 1 (.leaf 11204034560000000000102508789810253456320000112040345600000000001016833507000000000000001120403456000000000000000000000000000000000011204034560000000000000000000000000000000000112040345600000000000000000000000000000000001120403456000000000000000000000000000000000011204034560000000000000000000000000000000000112040345600000000000000000000000000000000001120403456000000000000000000000000000000000011204034560000000000000000000000000000000000112040345600000000000000000000000000000000001120403456107424083310400129090000000000205611204034560000000000000000000010623349160000112040345600000000000000000000000000000000001120403456109086443800000000000000000000000011204034560000000000000000000000000000000000)
 (.leaf 11204034560000000000101688719400000000000000112040345600000000001056088837104128629820571120403456000000000010383888741067572315000011204034560000000000000000000000000000002058112040345600000000001038549936000000000000001120403456000000000000000000000000000000000011204034560000000000102511474100000000000000112040345600000000000000000000101952050900001120403456000000000000000000001030348676000011204034560000000000000000000010190512530000112040345600000000000000000000000000000000001120403456000000000000000000001059243964205911204034560000000000000000000000000000000000112040345600000000000000000000000000000000001120403456000000000000000000000000000000000011204034560000000000000000000010599410180000))
 (.node 1 (.leaf 11204034560000000000000000000010256717020000112040345600000000000000000000000000000000001120403456000000000000000000000000000000000011200102400000000000000000000010425793350000112040345600000000000000000000105633453620601120403456000000000000000000001067498152000011185684480000000000000000000010624297270000111817523200000000000000000000105982126400001086324736000000000000000000000000000000000010846313490000000000000000000000000000000000112040345610526201140000000000104430232620611120403456000000000000000000000000000000000011156848640000000000000000000000000000000000107157890500000000000000000000000000000000001109917696000000000000000000000000000000000011036262400000000000000000000000000000000000)
 (.leaf 10863247360000000000000000000000000000000000111122841600000000000000000000101388323320621120403456000000000000000000001024405874206311204034561063430866103417443810784392412064112040345600000000000000000000101747394220651081692337000000000000000000000000000000000010863247360000000000000000000000000000000000112040345600000000000000000000100717866720661120403456000000000010735195261031316976206711204034560000000000108271113310128105060000112040345600000000000000000000000000000000001120403456000000000010499014000000000000000011204034560000000000104978731500000000000000112040345600000000000000000000000000000000001120403456000000000000000000000000000000000011204034560000000000000000000000000000000000))))
 (.node 4 (.node 2 (.node 1 (.leaf 11204034560000000000000000000000000000000000112040345600000000000000000000000000000000001120403456000000000010442206350000000000206811204034560000000000108404848710380367232069112040345600000000001067894125102141548700001120403456000000000010713510711052882739207011204034560000000000108307939310440260510000112040345600000000001080987484101915595600001120403456000000000010878346851018743690000011204034560000000000108061293300000000000000112040345600000000001078349267000000000000001120403456000000000010614072150000000000207111204034560000000000000000000000000000000000112040345600000000000000000000000000000020721120403456000000000000000000000000000000207311204034560000000000000000000000000000000000)
 (.leaf 11204034561059949711108050849500000000000000112040345600000000000000000000000000000000001120403456000000000000000000000000000000000011204034560000000000000000000000000000002074112040345610572028780000000000000000000020751120403456000000000000000000000000000000000011204034560000000000000000000000000000002076112040345600000000000000000000000000000020771120403456000000000010892408260000000000207811204034560000000000110852814910697002742079112001024000000000001109022658108448315620801089187243000000000000000000001015403651000010803415190000000000000000000000000000000000100898177000000000000000000000000000000000001015471251000000000000000000000000000000000010089817700000000000000000000000000000000000))
 (.node 1 (.leaf 11204034560000000000000000000010491142572081112040345600000000000000000000000000000020821116078080000000000000000000000000000000208311148984320000000000000000000000000000002084111568486400000000000000000000102486250600001112801280000000000000000000000000000000000010905190400000000000000000000000000000000000100898177000000000000000000000000000000000001086324736000000000000000000000000000000000010994319360000000000000000000000000000000000110362624000000000000000000000000000000000001108344832000000000000000000000000000000000011148984320000000000000000000000000000000000111817523200000000000000000000104246572920851109917696000000000000000000000000000000000011148984320000000000000000000000000000002086)
 (.leaf 11196170240000000000000000000000000000002087111935488000000000001085598912000000000020881118175232102460283510863972971066328542208911167334400000000000104009344000000000002090108632473600000000001046441938000000000000001077936128000000000000000000000000000000000010721028580000000000000000000000000000000000109051904000000000000000000000097611022500001114112000000000000000000000001031382359209111036262400000000000000000000010409713520000110205337600000000000000000000000000000000001111228416000000000000000000000000000000000010994319360000000000000000000000000000000000109051904000000000000000000000000000000000001077936128000000000000000000000000000000000010863247360000000000000000000000000000000000)))
 (.node 2 (.node 1 (.leaf 10779361280000000000000000000000000000000000107793612800000000000000000000000000000000001099431936000000000000000000000000000000000010968104960000000000000000000000000000000000111044198400000000000000000000000000000000001119617024000000000000000000000000000000000011204034560000000000000000000010602712150000112040345600000000000000000000103078805900001120403456000000000000000000001036792983209211204034560000000000000000000000000000002093112040345600000000000000000000000000000000001118961664108458070211012678880000000000000011175198720000000000000000000010318048880000112040345600000000000000000000101254151720941120403456000000000000000000000000000000000011204034561036194280000000000000000000002095)
 (.leaf 11204034560000000000000000000010243803230000112040345600000000000000000000000000000000001120403456000000000000000000000000000000209611204034560000000000000000000000000000000000112040345600000000000000000000000000000000001120403456000000000000000000000000000000000011204034560000000000000000000010299693620000112040345600000000000000000000105989842520971120403456000000000000000000000000000000000011204034560000000000000000000000000000000000112040345600000000000000000000000000000000001117720098000000000000000000000000000000000011204034560000000000000000000000000000000000112040345600000000000000000000000000000000001120403456000000000000000000000000000000000011204034560000000000000000000000000000000000))
 (.node 1 (.leaf 11204034560000000000000000000000000000000000112040345600000000000000000000000000000000001120403456000000000000000000000000000000000011204034560000000000000000000010666306900000112040345600000000000000000000000000000000001120403456000000000000000000000000000000000011204034560000000000000000000010315539760000112040345610590474990000000000000000000000001120403456000000000000000000000000000000000011204034560000000000000000000010328223630000112040345600000000000000000000000000000000001120403456000000000000000000000000000000000011204034560000000000104316702600000000000000112040345600000000000000000000000000000000001120403456000000000000000000000000000000000011204034560000000000000000000000000000000000)
 (.leaf 11204034560000000000000000000000000000000000112040345600000000000000000000000000000000001120403456000000000000000000001056643664000011204034560000000000000000000010382001360000112040345600000000000000000000000000000000001120403456105699016010432945320000000000209811204034561040029149103397311100000000000000112040345600000000001076145580104810774100001120403456000000000000000000001062432644000011204034560000000000000000000000000000000000112040345610953625800000000000000000000000001120403456000000000000000000000000000000000011204034560000000000103442945100000000000000112040345600000000001088415597100780229900001120403456000000000010334228190000000000209911204034561048515535106615348910703596172100)))))))))))
 (.node 512 (.node 256 (.node 128 (.node 64 (.node 32 (.node 16 (.node 8 (.node 4 (.node 2 (.node 1 (.leaf 11204034560000000000104267713100000000000000112040345600000000000000000000000000000000001120403456000000000000000000001020589116000011204034560000000000000000000000000000002101112040345600000000000000000000000000000000001120403456000000000000000000000000000000000011204034560000000000000000000000000000002102112040345600000000000000000000102099389900001120403456000000000000000000000000000000000011204034560000000000000000000010207921610000112040345600000000000000000000104834916400001120403456000000000000000000000000000000000011204034560000000000000000000000000000000000112040345600000000000000000000106423801000001115684864000000000000000000001047953257000011067719680000000000000000000010448851350000)
 (.leaf 11020533760000000000000000000010412191370000106395738500000000000000000000000000000000001106771968000000000000000000001024674319000011196170240000000000000000000010545087422103112040345600000000000000000000104870929121041120403456105896389800000000001051702204210511204034561057757868000000000000000000002106111896166400000000000000000000102631628400001116340224000000000000000000001061175478210711204034560000000000000000000010380747132108112040345600000000000000000000103853526121091120403456000000000010741214091046315595211011204034560000000000104517358110493037342111112040345600000000000000000000102907492600001112801280000000000000000000000000000000211211156848640000000000000000000000000000000000))
 (.node 1 (.leaf 11204034560000000000000000000000000000002113112040345600000000000000000000000000000000001120403456000000000010547735041050633434211411204034560000000000107845957710407580910000112040345600000000000000000000000000000000001120403456000000000010620313270000000000000011204034560000000000000000000000000000000000112040345600000000000000000000000000000000001120403456000000000000000000000000000000000011204034560000000000106210682510343995840000112040345600000000001053689695000000000000001120403456000000000010535856770000000000000011204034560000000000106625666910325164260000112040345600000000001078777086000000000000001120403456000000000010728324990000000000000011204034560000000000109558345200000000002115)
 (.leaf 11204034560000000000110407749500000000000000112040345600000000001099078671103313968500001120403456000000000010481196600000000000000011204034560000000000000000000010338314822116112040345600000000000000000000104795130321171120403456000000000000000000001033811900211811204034560000000000000000000000000000002119112040345600000000000000000000102598946121201120403456000000000010934164651023768996000011204034560000000000000000000000000000002121112040345600000000000000000000000000000021221120403456000000000000000000000000000000000011204034561024378960000000000000000000002123112040345600000000000000000000000000000021241120403456000000000000000000000000000000212511204034560000000000000000000000000000002126)))
 (.node 2 (.node 1 (.leaf 11204034561039888892000000000010619524842127112040345600000000000000000000000000000021281120403456000000000000000000001061714666212911204034560000000000106540438700000000002130111634022400000000001108589491108294542300001090519040000000000010883656871065578017000011193548800000000000000000000000000000002131111358771200000000000000000000000000000021321116340224000000000000000000000000000000213311204034560000000000000000000000000000002134112040345600000000000000000000000000000021351120403456000000000010322148590000000000213611204034560000000000105908189300000000000000112040345600000000000000000000000000000021371120403456000000000000000000000000000000213811204034560000000000000000000000000000002139)
 (.leaf 11204034560000000000106299937300000000002140112040345610551240471056179434000000000021411119617024000000000010718451600000000000214210763762660000000000000000000000000000000000108632473600000000000000000000000000000000001086324736000000000000000000000000000000000010863247360000000000000000000000000000000000107793612800000000000000000000000000000000001071458109000000000000000000000000000000000011075584000000000000000000000000000000000000110205337600000000000000000000000000000000001116078080000000000000000000000000000000000011099176960000000000000000000000000000000000111935488000000000000000000000000000000000001117913088000000000000000000000000000000000010936647681066944711000000000000000000000000))
 (.node 1 (.leaf 11204034560000000000000000000009619329200000112040345600000000000000000000106498884700001120403456000000000000000000000000000000000011204034560000000000000000000000000000000000112040345600000000000000000000000000000000001120403456000000000000000000001048478944000011204034560000000000000000000000000000000000112040345600000000000000000000000000000000001120403456105947194600000000000000000000000011204034560000000000000000000000000000000000112040345600000000000000000000000000000000001120403456000000000000000000000000000000214311204034560000000000000000000000000000000000112040345600000000000000000000000000000000001120403456000000000000000000000000000000000011204034560000000000000000000000000000000000)
 (.leaf 11204034560000000000000000000000000000002144112040345600000000000000000000101270676700001120403456000000000000000000000000000000000011204034560000000000000000000000000000000000112040345600000000000000000000000000000021451120403456000000000000000000000000000000000011204034560000000000000000000000000000000000112040345600000000000000000000000000000000001120403456000000000000000000000000000000000011204034560000000000000000000000000000000000112040345600000000000000000000000000000000001120403456000000000000000000000000000000000011204034560000000000000000000000000000000000112040345600000000000000000000000000000000001120403456000000000000000000000000000000000011204034560000000000000000000000000000000000))))
 (.node 4 (.node 2 (.node 1 (.leaf 11204034560000000000000000000010259451590000112040345600000000000000000000102822959400001120403456000000000010451467370000000000000011204034560000000000103016132810453935400000112040345600000000000000000000000000000000001120403456000000000000000000000000000000000011204034560000000000000000000000000000000000112040345600000000000000000000000000000000001120403456000000000000000000000000000000000011204034560000000000000000000000000000000000112040345600000000000000000000000000000000001120403456000000000010466231321048650699000011204034560000000000107716689300000000000000112040345600000000001087125009000000000000001120403456000000000010906555650000000000000011204034560000000000108258677210212700830000)
 (.leaf 11204034560000000000108926389510671547610000112040345600000000001090835920106810265000001120403456000000000010898366270000000000000011204034560000000000109347329810431767860000112040345600000000001093044535105859039200001120403456000000000010952696141081154366000011204034560000000000109509743700000000002146112040345600000000001057538389106314868000001120403456000000000010582782640000000000000011204034560000000000000000000000000000000000112040345600000000000000000000103080124700001120403456000000000000000000001056833214000011204034560000000000000000000000000000000000112040345600000000000000000000000000000000001120403456000000000010303223890000000000000011204034560000000000000000000000000000000000))
 (.node 1 (.leaf 11204034560000000000000000000000000000000000112040345600000000000000000000000000000000001120403456000000000010359863770000000000000011204034560000000000000000000000000000000000112040345600000000000000000000102907901300001120403456000000000000000000000000000000000011204034560000000000000000000000000000000000112040345600000000000000000000000000000000001120403456000000000000000000000000000000000011204034560000000000000000000000000000000000112040345600000000000000000000104890651921471120403456104072741700000000001043058785000011204034561058293800000000000000000000002148112040345600000000000000000000104243375421491120403456000000000000000000001047927983215011204034560000000000000000000000000000002151)
 (.leaf 11204034560000000000000000000010668872862152112040345600000000000000000000105972075600001108344832000000000000000000001015887790000010779361280000000000000000000000000000000000112040345610613674860000000000105228572421531120403456000000000000000000000000000000215411204034560000000000000000000000000000002155111751987200000000000000000000103310639721561093664768000000000000000000000000000000000011156848640000000000000000000010603034972157112040345600000000000000000000102071144421581120403456000000000000000000001038936804215911204034560000000000000000000010321827752160112040345600000000000000000000105741911321611120403456000000000000000000001028732793216211204034560000000000000000000010426847672163)))
 (.node 2 (.node 1 (.leaf 11167334400000000000000000000000000000002164112040345600000000000000000000101755062900001120403456000000000000000000000000000000000011204034560000000000105343468210261824160000112040345610837934711060971007000000000000001120403456000000000010711287730000000000000011204034560000000000000000000010471060370000112040345600000000001064066404000000000021651120403456000000000000000000000000000000000011204034560000000000000000000010125994600000112040345600000000000000000000000000000000001120403456000000000000000000001025693202000011204034560000000000000000000010415326790000112040345600000000000000000000102019036100001120403456000000000010744930241019380533000011204034560000000000104303951900000000000000)
 (.leaf 11204034560000000000000000000000000000000000112040345600000000000000000000000000000000001120403456000000000000000000000000000000000011204034560000000000106277959100000000000000112040345600000000001041831559000000000000001120403456000000000010865562621041370711000011204034560000000000000000000010551683490000112040345600000000000000000000103007954121661120403456000000000000000000001029903662216711204034560000000000000000000010293475800000112040345600000000000000000000000000000000001120403456000000000010805928000000000000216811204034560000000000000000000010264535680000112040345600000000001076504612105115953321691120403456000000000000000000000000000000000011204034560000000000000000000000000000002170))
 (.node 1 (.leaf 11204034560000000000000000000000000000002171112040345600000000000000000000000000000021721120403456104060293000000000000000000000217311204034560000000000000000000000000000002174112040345600000000000000000000000000000021751120403456000000000010876704781043409871000011179130880000000000111272656910873879022176110834483200000000001102849769107032451600001114898432000000000010775003400000000000000010905190401030000803000000000000000000000000111122841610929109110000000000000000000000001119617024000000000010711002510000000000000011204034560000000000000000000000000000002177112040345600000000000000000000000000000021781120403456000000000000000000000000000000000011204034560000000000106810719600000000000000)
 (.leaf 11204034560000000000000000000000000000000000112040345610805037260000000000000000000021791120403456000000000010368051050000000000000011204034560000000000108013352400000000000000112040345600000000001074859187000000000000001120403456000000000000000000000000000000218011204034560000000000000000000000000000000000112040345600000000000000000000000000000021811120403456000000000010510456060000000000000010772328690000000000000000000000000000000000106521795800000000000000000000000000000000001090519040000000000000000000000000000000000010779361280000000000000000000000000000000000106273160800000000000000000000000000000000001090519040000000000000000000000000000000000010863247360000000000000000000000000000000000)))))
 (.node 8 (.node 4 (.node 2 (.node 1 (.leaf 10863247360000000000000000000000000000000000108632473600000000000000000000000000000000001093664768000000000000000000000000000000000011067719680000000000000000000000000000000000112040345600000000000000000000000000000000001120403456000000000010422878990000000000000011204034560000000000000000000009349146252182112040345600000000000000000000000000000000001120403456000000000000000000001055787895000011204034560000000000000000000000000000000000112040345600000000000000000000104318881200001120403456000000000000000000000000000000218311204034560000000000000000000000000000000000112040345600000000000000000000000000000021841120403456000000000000000000000000000000000011204034560000000000000000000000000000000000)
 (.leaf 11204034561078345945000000000000000000000000112040345610907787550000000000000000000000001120403456000000000000000000000000000000000011204034560000000000000000000000000000000000112040345600000000000000000000000000000000001120403456000000000000000000000000000000000011204034560000000000000000000000000000000000112040345600000000000000000000000000000000001120403456000000000000000000000000000000000011204034560000000000000000000000000000000000112040345600000000000000000000102773632100001120403456000000000000000000000000000000000011204034560000000000000000000000000000000000112040345600000000000000000000102614142100001120403456000000000000000000000000000000000011204034560000000000000000000000000000000000))
 (.node 1 (.leaf 11204034560000000000000000000000000000000000112040345600000000000000000000000000000000001120403456000000000000000000000000000000000011204034560000000000000000000000000000000000112040345600000000000000000000000000000000001120403456000000000000000000000000000000000011204034560000000000000000000000000000000000112040345600000000000000000000103096079000001120403456000000000010366977311030935190000011204034560000000000104134166410334801710000112040345600000000001036362187103340007300001120403456000000000000000000000000000000000011204034560000000000103924786810307717480000112040345600000000000000000000000000000000001120403456000000000000000000000000000000000011204034560000000000000000000010357355000000)
 (.leaf 11204034560000000000000000000010270718090000112040345600000000001084003189000000000000001120403456000000000000000000001027677602000011204034560000000000000000000010662272710000112040345600000000001091025502108255899900001120403456000000000010976958091062190038000011204034560000000000109761643210670521610000112040345600000000001097700632106507475500001120403456000000000010975326501072765440000011204034560000000000109783107510512094050000112040345600000000001097554566107350278400001120403456000000000010975131471063411395000011204034560000000000109769287310672050180000112040345600000000001097772460105891370700001120403456000000000010957969421079999868218511204034560000000000109626880210484434762186)))
 (.node 2 (.node 1 (.leaf 11204034561070366810105689078810257116192187112040345610648262771028604402107546062221881120403456000000000010251147410000000000000011204034560000000000000000000000000000000000112040345600000000000000000000000000000000001120403456000000000000000000000000000000000011204034560000000000000000000010215457380000112040345600000000000000000000000000000000001120403456000000000000000000000000000000000011204034560000000000000000000010363367320000112040345600000000000000000000000000000000001120403456000000000000000000001021626602000011204034560000000000000000000010441224572189112040345600000000000000000000101544238400001120403456000000000000000000000000000000000011204034560000000000000000000000000000000000)
 (.leaf 11204034560000000000000000000000000000002190112040345610386637520000000000000000000000001120403456000000000000000000001032282319219111204034560000000000000000000010338846342192112040345600000000000000000000102932496400001120403456000000000000000000001024093063219311204034561091043791000000000010409648752194112040345610636543221033342288103713746421951120403456000000000000000000001067887838219611167334400000000000000000000010572890950000109051904000000000000000000000000000000000001074160667000000000000000000000000000000000011204034560000000000000000000010489975962197112040345600000000000000000000000000000021981120403456000000000000000000001028513786219911196170240000000000000000000010531098550000))
 (.node 1 (.leaf 10779361280000000000000000000000000000000000107793612800000000000000000000000000000000001090519040106931390610368319491062818391220011020533760000000000000000000010470273480000110048051200000000000000000000105185043100001120010240104523948110033848911027813182220111204034560000000000000000000000000000002202112040345600000000000000000000000000000022031120403456000000000000000000001041062371220411204034560000000000000000000000000000002205112040345600000000000000000000105038655322061120403456000000000000000000000000000000220710524465040000000000000000000000000000000000111634022400000000000000000000105288899622081120403456000000000000000000000000000000220911204034560000000000000000000000000000000000)
 (.leaf 11204034560000000000000000000010278866650000112040345600000000001078564435000000000000001120403456000000000010826614310000000000000011204034560000000000104555610100000000000000112040345600000000000000000000103130007900001120403456000000000000000000000000000000000011204034560000000000000000000000000000000000112040345600000000000000000000000000000000001120403456000000000000000000000000000000000011204034560000000000107936764410319066180000112040345600000000001083857646000000000022101120403456000000000010668547771035593678000011204034560000000000106398587310458657020000112040345600000000000000000000000000000000001120403456000000000011010256671018718146000011204034560000000000110163153410404675870000))))
 (.node 4 (.node 2 (.node 1 (.leaf 11204034560000000000110411288400000000000000112040345600000000001063729181104074456400001120403456000000000010735010710000000000221111204034561049887542105843764810392785420000112040345600000000000000000000000000000000001120403456000000000000000000001027747318221211204034560000000000000000000010488960502213112040345600000000000000000000000000000022141120403456000000000000000000000000000000221511204034560000000000000000000010333963372216112040345610729321220000000000097104708122171120403456000000000010381070171046453192221811204034560000000000106643199100000000000000110519910400000000001098087347104398646322191080536513000000000000000000000000000000000011204034560000000000106386507700000000000000)
 (.leaf 11200102400000000000000000000010378883540000111280128000000000000000000000000000000000001108344832000000000000000000000000000000000011067719680000000000104067728700000000000000110519910400000000000000000000000000000000001120403456000000000000000000000000000000000011204034560000000000000000000000000000002220112040345600000000000000000000000000000022211120403456108172684300000000000000000000000011204034561091991778102508789800000000000000112040345600000000000000000000000000000000001120403456000000000000000000000000000000000011204034560000000000000000000000000000000000112040345600000000000000000000000000000022221120403456000000000000000000000000000000000011204034560000000000000000000000000000000000))
 (.node 1 (.leaf 11204034560000000000000000000010308372870000112040345610749894451073241024105086581200001120403456108268383310635010110000000000000010342383790000000000000000000000000000000000111201484800000000000000000000000000000000001112801280000000000000000000000000000000000011171266560000000000000000000000000000000000111607808000000000000000000000000000000000001111228416000000000000000000000000000000222311020533760000000000000000000000000000000000107793612800000000000000000000000000000000001077936128000000000000000000000000000000000010863247360000000000000000000000000000000000110834483200000000000000000000101371602800001116078080000000000000000000001033931168000011171266560000000000000000000010587617560000)
 (.leaf 10968104960000000000000000000000000000000000109681049600000000000000000000000000000000001120403456000000000000000000000000000000000011204034560000000000000000000000000000000000112040345600000000000000000000000000000000001120403456000000000000000000000000000000000011204034560000000000103000026600000000000000112040345600000000001025195272000000000000001120403456000000000000000000000000000000000011204034560000000000000000000000000000000000112040345600000000000000000000000000000000001120403456000000000000000000000000000000000011204034560000000000000000000000000000000000112040345600000000000000000000000000000022241120403456000000000000000000000000000000000011204034560000000000000000000000000000000000)))
 (.node 2 (.node 1 (.leaf 11204034560000000000000000000000000000000000112040345600000000000000000000000000000022251120403456110928607100000000000000000000000011204034561098525011000000000000000000000000112040345611080575810000000000000000000000001120403456111204114200000000000000000000000011204034561114206185000000000000000000000000112040345611014006050000000000000000000000001120403456000000000000000000000000000000000011204034561083821085000000000000000000000000112040345610945502560000000000000000000000001120403456000000000000000000000000000000000011204034560000000000000000000000000000000000112040345600000000000000000000000000000000001120403456000000000000000000000000000000000011204034560000000000000000000000000000000000)
 (.leaf 11204034560000000000000000000000000000000000112040345600000000000000000000000000000000001120403456000000000000000000001039867844000011204034560000000000000000000000000000000000112040345600000000001043435461000000000000001120403456000000000010785149420000000000000011204034561048704010109293915310267291030000112040345600000000001040939011000000000000001120403456000000000000000000000000000000000011204034560000000000000000000010444709720000112040345600000000001067755713105636470200001120403456000000000010976573260000000000000011204034560000000000109685044700000000000000112040345600000000001092853170104096511722261120403456000000000010905841571051165724000011204034560000000000109726337610304307070000))
 (.node 1 (.leaf 11204034560000000000109782614710524943790000112040345600000000001097579941105583956500001120403456000000000010978105231054889194000011204034560000000000109760164710684899280000112040345600000000001097828978104427577500001120403456000000000010972257321038656148000011204034560000000000109553668610763984670000112040345600000000001077235260106057921000001120403456000000000000000000001075370707000011204034560000000000000000000010638727540000112040345600000000000000000000102867942000001120403456105519273310459453331035956992222711204034561060696146103519449310515513802228112040345610746195951062474246102273890522291120403456000000000000000000000000000000000011204034560000000000000000000000000000000000)
 (.leaf 11204034560000000000000000000000000000000000112040345600000000000000000000000000000000001120403456000000000000000000000000000000000011204034560000000000000000000010549100640000112040345600000000000000000000101122487000001120403456000000000000000000000000000000000011204034560000000000000000000000000000000000112040345600000000000000000000000000000000001120403456000000000000000000001019233995000011204034560000000000000000000010590785780000112040345600000000000000000000000000000000001120403456000000000000000000001051010084223011204034560000000000000000000010571048702231111856844800000000000000000000106653178000001086324736000000000000000000000000000000000011204034560000000000000000000010574476442232))))))
 (.node 16 (.node 8 (.node 4 (.node 2 (.node 1 (.leaf 11204034560000000000000000000010460290062233110991769610424404380000000000103221240300001100480512000000000000000000000000000000000011185684481074725351104157654510758566892234112040345610875568251046904989108064766022351120403456000000000000000000001040680547223611204034560000000000000000000010255905242237112040345600000000000000000000000000000022381120403456000000000000000000001027221854223911204034561084067068106050292310579904382240112040345600000000000000000000000000000022411112801280000000000000000000001047490957224211104419840000000000000000000000000000002243111411200000000000000000000000000000000022441120403456000000000000000000000000000000000011204034560000000000000000000010195189912245)
 (.leaf 11204034560000000000106136023910244086502246112040345600000000001075008504000000000000001120403456107020230110632426420000000000000011204034560000000000000000000000000000000000112040345600000000000000000000000000000000001120403456000000000000000000000000000000000011204034560000000000108254755610639108800000112040345600000000000000000000000000000000001120403456000000000010586037420000000000000011204034560000000000105887553300000000000000112040345600000000001065188799000000000000001120403456000000000010633349170000000000000011204034560000000000109625758210236531420000112040345600000000001075477846104124917400001120403456000000000010718778751041952513224711204034560000000000105865071800000000002248))
 (.node 1 (.leaf 11204034560000000000105956339900000000002249112040345600000000000000000000103999905422501120403456000000000000000000001044044345225111204034560000000000000000000010783214092252112040345600000000001077734801000000000022531120403456000000000000000000001032009190225411204034560000000000106554950900000000002255112040345610549370481072848437105027860722561120403456000000000011004899491063944322225711204034560000000000109126562600000000002258112040345600000000001081889260000000000000001120403456000000000010790102891041669011000011204034560000000000000000000000000000002259112040345600000000000000000000000000000000001120403456000000000000000000000000000000226011204034560000000000000000000010265144852261)
 (.leaf 11204034560000000000000000000000000000002262112040345600000000000000000000102997395922631120403456000000000000000000001031428021226411204034560000000000000000000010324632222265112040345600000000000000000000100236353100001120403456000000000010896290091032049180000011204034560000000000110854479510391734790000112040345600000000001109866316000000000000001117519872000000000011091392591083895719000010905190400000000000108910451100000000000000111607808010614287741082641927105816329300001120403456000000000000000000000000000000000011204034560000000000000000000000000000000000112040345600000000000000000000000000000000001120403456000000000000000000000000000000000011204034560000000000000000000000000000002266)))
 (.node 2 (.node 1 (.leaf 11204034560000000000000000000000000000002267112040345600000000000000000000000000000000001120403456000000000000000000000000000000000011204034561080203959000000000000000000000000112040345610839277020000000000000000000000001120403456000000000000000000000000000000000011204034560000000000000000000000000000000000112040345600000000000000000000000000000000001120403456000000000000000000000000000000000011204034560000000000000000000000000000000000112040345600000000000000000000000000000000001120403456000000000010718753590000000000000010779361280000000000000000000000000000000000109051904000000000000000000000000000000000001090519040000000000000000000000000000000000010089817700000000000000000000000000000000000)
 (.leaf 10089817700000000000000000000000000000000000109366476800000000000000000000101258016322681116078080000000000000000000001057451255226911148984320000000000000000000010206745072270109681049600000000000000000000105086020000001120403456000000000000000000001033423277000011204034560000000000000000000000000000000000112040345600000000001034080485000000000000001120403456000000000000000000000000000000000011204034560000000000000000000000000000000000112040345600000000000000000000000000000000001120403456000000000000000000000991818484000011204034560000000000000000000010356385760000112040345600000000000000000000000000000000001120403456000000000000000000000000000000000011204034560000000000000000000000000000000000))
 (.node 1 (.leaf 11204034560000000000000000000010459478380000112040345611041835050000000000000000000000001120403456110310544400000000000000000000000011204034561118253225000000000000000000000000112040345610894249010000000000000000000000001120403456106195195400000000000000000000000011204034560000000000000000000010226639710000112040345600000000000000000000000000000000001120403456000000000000000000000000000000000011204034560000000000000000000000000000000000112040345600000000000000000000000000000000001120403456000000000000000000000000000000000011204034560000000000000000000000000000000000112040345600000000000000000000000000000000001120403456000000000000000000000000000000000011204034560000000000000000000010505220000000)
 (.leaf 11204034560000000000000000000010735193270000112040345600000000000000000000000000000000001120403456000000000010385767790000000000000011204034560000000000107513601110203873100000112040345610794816701098487903000000000000001120403456000000000010853017450000000000000011204034560000000000109758078010729100940000112040345600000000001097365612107147396522711120403456000000000010971823211077330912227211204034560000000000109651144210479215790000112040345600000000001097143314000000000022731120403456000000000010970600571056939290000011204034560000000000109789503800000000000000112040345600000000001097750335106272461600001120403456000000000010978703971041402122000011204034560000000000109787364710404897490000))))
 (.node 4 (.node 2 (.node 1 (.leaf 11204034560000000000109771919210525383650000112040345600000000001097876583103726995800001120403456000000000010939977961066759124227411204034560000000000107430763610226911680000112040345600000000000000000000108019226800001120403456000000000000000000001028209966000011204034560000000000101688719400000000000000112040345600000000000000000000000000000000001120403456000000000000000000001037827651000011204034560000000000000000000010439966840000112040345600000000000000000000000000000000001120403456000000000000000000000000000000000011204034560000000000000000000000000000000000112040345600000000000000000000000000000000001120403456000000000000000000000000000000000011204034560000000000000000000000000000000000)
 (.leaf 11204034560000000000000000000010166385182275112040345600000000000000000000105690827800001120403456000000000000000000001041984717000011204034560000000000000000000010512425242276111673344000000000000000000000000000000000001100480512000000000000000000001023495661227711193548800000000000000000000010613823222278111607808000000000000000000000105075182522791099431936000000000000000000000000000000000010994319360000000000000000000000000000000000109051904000000000000000000000000000000000001077936128000000000000000000000000000000000011099176960000000000000000000000000000000000112040345600000000000000000000000000000022801120403456000000000000000000000000000000228111120148480000000000000000000000000000002282))
 (.node 1 (.leaf 11204034560000000000000000000000000000002283110755840010275787100000000000104124303222841113587712105401836100000000001034572964228511075584000000000000000000000000000000000000109051904000000000000000000000000000000022861086324736000000000000000000000000000000000010994319360000000000000000000000000000000000110362624000000000000000000000101801782500001116078080000000000000000000001049984830228711204034560000000000107294658410298755512288112040345600000000001045784271104333502722891120403456000000000010776760810000000000229011204034560000000000106859289610251415890000112040345600000000000992634051000000000000001120403456000000000000000000000000000000000011204034560000000000000000000000000000000000)
 (.leaf 11204034560000000000000000000000000000000000112040345600000000000000000000102564214600001120403456000000000000000000000000000000000011204034560000000000107569427309959306240000112040345600000000001092480087105081010000001120403456000000000010796679560998324614229111204034560000000000000000000000000000000000112040345600000000000000000000000000000000001120403456000000000000000000000000000000000011204034560000000000105520635600000000000000112040345600000000000000000000000000000000001120403456000000000010485021801029211152000011204034560000000000108585287700000000000000112040345600000000001099375680105528337400001120403456000000000011081046820000000000000011204034560000000000110365166800000000000000)))
 (.node 2 (.node 1 (.leaf 11204034560000000000000000000000000000000000112040345600000000001040965855103021849300001120403456000000000000000000000000000000229211204034560000000000000000000000000000002293112040345600000000000000000000103390379722941120403456000000000010934931161026049001000011204034560000000000106599242810572749540000112040345600000000000000000000000000000022951120403456000000000000000000001043692953229611204034560000000000000000000010402461982297112040345610335130131035516615000000000022981120403456000000000000000000000000000000229911204034560000000000000000000010246343442300112040345600000000000000000000000000000023011120403456000000000011108917710000000000230211204034560000000000110909629410649540690000)
 (.leaf 10627955630000000000000000000010459378020000100898177000000000000000000000000000000000001008981770000000000000000000000000000000000011204034560000000000000000000000000000000000112040345600000000000000000000000000000000001120403456000000000000000000000000000000000011204034560000000000000000000000000000000000112040345600000000000000000000000000000000001120403456000000000000000000000000000000000011204034560000000000000000000000000000000000112040345600000000000000000000000000000000001120403456000000000000000000000000000000000011204034561047962759000000000000000000000000112040345610612582500000000000000000000000001114112000000000000000000000000000000000000011204034560000000000000000000010307457850000))
 (.node 1 (.leaf 11204034560000000000000000000000000000000000112040345600000000000000000000000000000000001120403456000000000000000000000000000000000011204034561033484424000000000000000000000000112040345600000000000000000000000000000023031120403456000000000000000000000000000000000011204034560000000000000000000000000000000000112040345600000000000000000000000000000000001120403456000000000000000000000000000000000011204034560000000000000000000000000000000000112040345600000000000000000000000000000000001120403456000000000000000000000000000000000011204034561112562291000000000000000000000000112040345611162110640000000000000000000000001120403456110008435900000000000000000000000011204034560000000000000000000000000000000000)
 (.leaf 11204034560000000000000000000000000000000000112040345611015510130000000000000000000000001120403456000000000000000000000000000000000011204034560000000000000000000000000000000000112040345600000000000000000000000000000000001120403456000000000000000000000000000000000011204034560000000000000000000010438469130000112040345600000000000000000000000000000000001120403456000000000000000000000000000000000011204034560000000000000000000000000000000000112040345600000000001040643732103370659800001120403456000000000010523777170000000000000011204034560000000000102508789800000000000000112040345600000000001068779962000000000000001120403456000000000010776341380000000000230411204034560000000000108362696010515431070000)))))
 (.node 8 (.node 4 (.node 2 (.node 1 (.leaf 11204034560000000000109623661010569791012305112040345600000000001097697801105920569123061120403456000000000010966063381066644982230711204034560000000000109701077410653551660000112040345600000000001096458174107512661200001120403456000000000010976690701068679243000011204034560000000000109781817810550050750000112040345600000000001097353868107774282600001120403456000000000010968683771086910917000011204034560000000000109770671410458055010000112040345600000000001097134191107188933500001120403456000000000010973940291074465390000011204034560000000000109774656010616412262308112040345600000000001097508323106682873823091120403456000000000010973198941067870553000011204034560000000000109755435600000000000000)
 (.leaf 11204034560000000000108039105410438201740000112040345600000000000000000000000000000000001120403456000000000010250878980000000000000011204034560000000000000000000000000000000000112040345600000000000000000000103845261300001120403456000000000000000000001062730430000011204034560000000000000000000000000000000000112040345600000000000000000000000000000000001120403456000000000000000000000000000000000011204034560000000000000000000000000000000000112040345610667993621084545303000000000000001120403456104750393609885404100000000000000011204034560000000000000000000000000000000000112040345600000000000000000000000000000000001120403456000000000000000000000000000000000011204034560000000000000000000010245941820000))
 (.node 1 (.leaf 11204034560000000000000000000000000000000000112040345600000000000000000000000000000000001120403456100654383900000000000000000000231011204034560000000000000000000010275057452311112040345600000000000000000000104469018800001120403456000000000000000000000000000000000011204034560000000000000000000000000000000000112040345600000000000000000000102446982400001120403456000000000000000000000000000000000011204034560000000000000000000010411663160000109051904000000000000000000000000000000000001093664768000000000000000000000000000000231210909568310000000000000000000000000000000000106832521600000000000000000000000000000000001096810496000000000000000000000000000000000011020533760000000000000000000000000000002313)
 (.leaf 11185684480000000000000000000010160189942314111961702400000000000000000000100292898223151115684864000000000000000000001015325254231611120148480000000000000000000000000000002317109943193600000000000000000000000000000023181112801280000000000000000000000000000000231911156848640000000000000000000010150996612320110519910400000000000000000000104578355900001120403456000000000000000000001040520240232111175198720000000000000000000000000000002322110362624000000000000000000000000000000023231090519040000000000000000000000000000000000010779361280000000000000000000000000000000000111122841600000000000000000000106189199500001120403456000000000000000000000000000000232411204034560000000000000000000000000000002325)))
 (.node 2 (.node 1 (.leaf 11204034560000000000000000000000000000002326112040345600000000001054850679000000000000001120403456000000000000000000000000000000000011204034560000000000000000000000000000000000112040345600000000001083229130104204801923271120403456000000000000000000000000000000000011204034560000000000000000000000000000000000112040345600000000000000000000000000000000001120403456000000000000000000000000000000000011204034560000000000000000000000000000000000112040345600000000001080692205000000000000001120403456000000000010740895320000000000000011204034560000000000000000000000000000000000112040345600000000000000000000000000000023281120403456000000000010940314551052105257232911204034560000000000110494671210468121040000)
 (.leaf 11204034560000000000108441318210169275810000112040345600000000000000000000103404011223301120403456000000000000000000000000000000000011204034560000000000000000000010245431510000112040345600000000000000000000102736092800001120403456000000000000000000001028910236233111204034560000000000000000000010315480742332112040345600000000000000000000103222225400001120403456101506612810956295900000000000000011204034561040546290110986282900000000002333111280128000000000001103518079104247267000001099431936000000000010876692201052498862000010716257140000000000000000000000000000000000100898177000000000000000000000000000000000001008981770000000000000000000000000000000000011204034560000000000107563513300000000000000))
 (.node 1 (.leaf 11204034560000000000000000000000000000000000112040345600000000000000000000000000000000001120403456000000000000000000000000000000000011204034560000000000000000000000000000000000112040345600000000000000000000000000000000001120403456000000000000000000000000000000000011204034560000000000000000000000000000000000112040345600000000000000000000000000000000001120403456000000000000000000000000000000000011204034560000000000000000000000000000000000112040345600000000000000000000000000000000001120403456108755884100000000000000000000000011148984320000000000105099191900000000000000108632473600000000000000000000000000000000001093664768000000000000000000000000000000000011200102400000000000000000000010080053322334)
 (.leaf 11204034560000000000000000000000000000000000112040345610675041640000000000000000000000001120403456109196963300000000000000000000000011204034561085500232000000000000000000000000112040345600000000000000000000000000000000001120403456000000000000000000001041001615233511204034560000000000000000000000000000000000112040345600000000000000000000000000000000001120403456000000000000000000000000000000000011204034560000000000000000000000000000000000112040345600000000000000000000000000000000001120403456000000000000000000000000000000000011204034560000000000000000000000000000002336112040345600000000000000000000000000000000001120403456000000000000000000000000000000000011204034560000000000000000000000000000000000))))
 (.node 4 (.node 2 (.node 1 (.leaf 11204034560000000000000000000000000000000000112040345610912486360000000000000000000000001120403456109126767100000000000000000000000011204034560000000000000000000000000000000000112040345610939236130000000000000000000000001120403456109257795400000000000000000000000011204034561079866233000000000000000000000000112040345600000000000000000000000000000000001120403456000000000000000000000000000000000011204034560000000000000000000000000000000000112040345600000000000000000000000000000000001120403456000000000000000000000000000000000011204034560000000000000000000000000000000000112040345600000000000000000000000000000000001120403456000000000000000000000000000000000011204034560000000000000000000010248223580000)
 (.leaf 11204034560000000000000000000010246007140000112040345600000000000000000000000000000000001120403456000000000000000000000000000000000011204034560000000000000000000000000000000000112040345600000000000000000000000000000000001120403456000000000000000000001048813819233711204034560000000000000000000000000000002338112040345600000000001032174594102689727300001120403456104849473110168871941031840485000011204034561057898008000000000000000000000000112040345600000000001025248959000000000000001120403456000000000010301881710000000000000011204034561068158962101758512700000000002339112040345600000000001074064366104854098923401120403456000000000010954377000000000000234111204034560000000000109715233200000000002342))
 (.node 1 (.leaf 11204034560000000000109740587700000000002343112040345600000000001097528246106457219800001120403456000000000010976461061040410389000011204034560000000000109786284710339563010000112040345600000000001097650196106024614900001120403456000000000010975070651074462627000011204034560000000000109708039910807685370000112040345600000000001097135555107098209900001120403456000000000010976426461048608400000011204034560000000000109703059210842302430000112040345600000000001097745931000000000000001120403456000000000010967552361077278039234411204034560000000000108725293510561411870000112040345600000000000000000000107964828500001120403456000000000000000000001039802855000011204034560000000000103348992700000000000000)
 (.leaf 11204034560000000000106124615400000000000000112040345600000000001050545645000000000000001120403456000000000000000000000000000000000011204034560000000000000000000000000000000000112040345600000000000000000000000000000000001120403456000000000000000000000000000000000011204034560000000000000000000000000000000000112040345600000000000000000000000000000000001120403456000000000000000000000000000000000011204034560000000000000000000000000000000000112040345600000000000000000000000000000000001120403456000000000000000000000000000000000011204034560000000000000000000000000000000000112040345600000000000000000000000000000000001120403456000000000000000000000000000000000011204034560000000000000000000000000000000000)))
 (.node 2 (.node 1 (.leaf 11204034560000000000000000000000000000000000112040345600000000000000000000000000000000001120403456000000000000000000000000000000000011196170240000000000000000000000000000000000109681049600000000000000000000000000000000001096810496000000000000000000000000000000000010863247360000000000000000000000000000000000110362624000000000000000000000102706991623451118568448000000000000000000001040792518234611051991040000000000000000000010248944280000109943193600000000000000000000000000000000001096810496000000000000000000000000000000000011175198720000000000000000000010260382612347112001024000000000000000000000103650083923481119617024000000000000000000001050730566234911185684480000000000000000000000000000002350)
 (.leaf 10968104960000000000000000000000000000000000110991769600000000000000000000104379457500001119354880000000000000000000000000000000235110905190400000000000000000000010267612962352107793612800000000000000000000000000000000001066679874000000000000000000000000000000000010713423470000000000000000000000000000000000107793612800000000000000000000000000000000001090519040000000000000000000000000000000000011204034560000000000000000000010234253152353112040345600000000000000000000000000000023541120403456000000000000000000000000000000000011204034561028408444000000000000000000000000112040345600000000000000000000000000000000001120403456000000000000000000001042188624000011204034560000000000000000000000000000000000))
 (.node 1 (.leaf 11204034560000000000102263171310210080570000112040345600000000000000000000000000000000001120403456000000000010917922211032214228000011204034560000000000107910550000000000000000112040345600000000001103529876103720129400001120403456000000000010035996390000000000235511204034560000000000000000000000000000002356112040345600000000001061133746000000000023571120403456000000000000000000001036737397235811204034560000000000000000000000000000002359112040345600000000001071878714000000000023601120403456000000000010729943990000000000000011204034560000000000107767482300000000000000112040345600000000001090628406104633790600001120403456000000000000000000000000000000236111204034560000000000000000000000000000002362)
 (.leaf 11204034560000000000000000000000000000002363112040345600000000000000000000000000000023641120403456000000000010601556340000000000000011204034560993445800109080289000000000000000112040345609771453251109797267000000000023651072247393000000000000000000000000000000000010968104960000000000000000000000000000000000112040345600000000000000000000000000000000001120403456000000000000000000000000000000236611204034560000000000000000000000000000000000112040345600000000000000000000000000000000001120403456000000000000000000001021336289000011204034560000000000000000000000000000000000112040345600000000000000000000000000000000001120403456000000000000000000000000000000000011204034560000000000000000000000000000000000)))))))
 (.node 32 (.node 16 (.node 8 (.node 4 (.node 2 (.node 1 (.leaf 11204034560000000000000000000000000000000000112040345600000000000000000000000000000000001120403456000000000000000000000000000000000011204034560000000000000000000000000000000000112040345600000000000000000000000000000000001120403456000000000000000000000000000000000011204034560000000000000000000000000000000000112040345600000000000000000000000000000023671120403456000000000000000000000000000000000011204034560000000000000000000000000000000000112040345600000000000000000000000000000000001120403456000000000000000000000000000000000011204034560000000000000000000000000000000000112040345600000000000000000000000000000000001120403456000000000000000000000000000000000011204034560000000000000000000000000000000000)
 (.leaf 11204034560000000000102209484200000000000000112040345600000000000000000000104611231300001120403456000000000000000000000000000000000011204034560000000000000000000010647745940000112040345610739815120000000000000000000000001120403456107558267900000000001023464895000011204034560000000000000000000000000000000000112040345600000000000000000000000000000000001120403456000000000000000000000000000000000011204034560000000000000000000000000000000000112040345600000000000000000000000000000000001120403456000000000000000000000000000000236811204034560000000000000000000000000000000000112040345600000000000000000000102569885100001120403456000000000000000000000000000000000011204034560000000000000000000010253048222369))
 (.node 1 (.leaf 11204034560000000000000000000000000000000000112040345600000000000000000000000000000000001120403456000000000000000000000000000000000011204034561065998334000000000000000000000000112040345610329815110000000000000000000000001120403456000000000000000000000000000000000011204034561073000179000000000000000000000000112040345610793683280000000000000000000000001120403456000000000000000000000000000000000011204034560000000000000000000000000000000000112040345611005210440000000000000000000000001120403456000000000000000000000000000000000011204034560000000000000000000000000000000000112040345600000000000000000000000000000000001120403456000000000000000000000000000000000011204034560000000000000000000000000000000000)
 (.leaf 11204034560000000000000000000000000000000000112040345600000000000000000000000000000000001120403456000000000000000000000000000000000011204034560000000000000000000000000000000000112040345600000000000000000000000000000000001120403456000000000000000000000000000000000011204034560000000000000000000000000000000000112040345600000000000000000000000000000000001120403456000000000000000000001047991054000011204034560000000000000000000000000000000000112040345600000000000000000000000000000000001120403456000000000000000000000000000000000011204034560000000000106154814310525102360000112040345600000000000000000000104591820200001120403456000000000000000000001064977590000011204034560000000000106548911110611132170000)))
 (.node 2 (.node 1 (.leaf 11204034560000000000109733793000000000000000112040345600000000001097246808000000000000001120403456000000000010972540441058642850000011204034560000000000109700196610550620940000112040345600000000001097434504105704026100001120403456000000000010977176191062150598000011204034560000000000109772768510650196990000112040345600000000001097677459106589186200001120403456000000000010974706791074112351000011204034560000000000109735827200000000000000112040345600000000001091660100102836803800001120403456000000000010569243431006834607000011204034560000000000000000000010515315210000112040345600000000000000000000101560123600001120403456000000000000000000000000000000000011204034560000000000103034923300000000000000)
 (.leaf 11204034560000000000107363193310643080850000112040345600000000001025114741000000000000001120403456000000000010251147410000000000000011204034560000000000000000000000000000000000112040345600000000000000000000000000000000001120403456000000000010341744381050187921000011204034561041128325000000000000000000000000112040345610797628150000000000000000000000001120403456000000000000000000000000000000000011204034560000000000000000000000000000000000112040345600000000000000000000000000000000001120403456000000000000000000000000000000000011204034560000000000000000000000000000002370112040345600000000000000000000000000000023711120403456105257753400000000001054020119237211204034560000000000000000000010567386552373))
 (.node 1 (.leaf 11204034561092364603108620184310742967740000110677196800000000000000000000000000000000001105199104000000000000000000000000000000000010863247360000000000000000000000000000000000111489843200000000000000000000000000000000001120403456000000000000000000000000000000237411204034560000000000000000000010173994502375109366476800000000000000000000000000000000001120403456000000000000000000001027167747237611112284160000000000000000000000000000000000107793612800000000000000000000097491009300001093664768000000000000000000000000000000000010737552880000000000000000000000000000000000107793612800000000000000000000000000000000001071497116000000000000000000000000000000000010779361280000000000000000000000000000000000)
 (.leaf 11204034560000000000000000000000000000002377112040345600000000000000000000000000000000001120403456000000000000000000000000000000000011204034560000000000000000000000000000000000112040345600000000000000000000000000000000001120403456000000000000000000000000000000000011204034560000000000000000000000000000000000112040345600000000000000000000000000000000001120403456000000000000000000000000000000000011204034560000000000000000000000000000000000112040345600000000001052270343000000000000001120403456000000000010838293350000000000000011204034560000000000106765588910291243990000112040345600000000000000000000000000000000001120403456000000000000000000001036934573000011204034560000000000000000000010081817972378))))
 (.node 4 (.node 2 (.node 1 (.leaf 11204034560000000000106387346610434204422379112040345600000000001044193791105145220423801120403456000000000010825859331044153823238111204034560000000000103051029410510592872382112040345600000000001097279419000000000000001120403456000000000010865153671033764106238311204034560000000000000000000010197826272384112040345600000000000000000000000000000023851120403456000000000010683336880000000000000011051991041076350929108359969700000000000000109943193600000000000000000000000000000000001096810496000000000000000000000000000000000011204034560000000000000000000000000000000000112040345600000000000000000000000000000000001120403456000000000000000000000000000000000011204034560000000000000000000000000000002386)
 (.leaf 11204034560000000000000000000000000000000000112040345600000000000000000000000000000000001120403456000000000000000000000000000000000011204034560000000000000000000000000000000000112040345600000000000000000000000000000000001120403456000000000000000000000000000000000011204034560000000000000000000000000000000000112040345600000000000000000000000000000000001120403456000000000000000000000000000000000011204034560000000000000000000000000000000000112040345600000000000000000000000000000000001120403456000000000000000000000000000000000011204034560000000000000000000000000000000000111607808000000000000000000000000000000000001100480512000000000010610834150000000000000011128012800000000000000000000000000000000000))
 (.node 1 (.leaf 11181752320000000000000000000000000000000000111673344000000000000000000000000000000000001111228416000000000000000000000000000000000010863247360000000000000000000000000000000000111961702400000000000000000000105151036000001120403456000000000000000000001023858491000011204034560000000000000000000000000000000000112040345610757414420000000000000000000000001120403456106096206500000000000000000000000011204034560000000000000000000000000000000000112040345610570633420000000000000000000000001120403456000000000000000000000000000000000011204034560000000000000000000000000000002387112040345600000000000000000000000000000000001120403456000000000000000000000000000000000011204034560000000000000000000000000000000000)
 (.leaf 11204034560000000000000000000000000000000000112040345600000000000000000000000000000000001120403456000000000000000000000000000000000011204034560000000000000000000000000000000000112040345600000000000000000000000000000000001120403456000000000000000000000000000000000011204034560000000000000000000000000000000000112040345600000000000000000000105220355900001120403456105698551200000000001033472862000011204034560000000000000000000000000000000000112040345600000000000000000000000000000000001120403456107578523910510590280000000000238811204034560000000000106036367210526701000000112040345600000000000000000000000000000000001120403456000000000010963381131045165270000011204034560000000000109666201810644835700000)))
 (.node 2 (.node 1 (.leaf 11204034560000000000109707505210612443890000112040345600000000001097832124103211266200001120403456000000000010974816891061476769000011204034560000000000109785561210400698880000112040345600000000001096961910105718243500001120403456000000000010966861351073793343000011204034560000000000109626334910770458370000112040345600000000001097312974107431496800001120403456000000000010977984641045709492000011204034560000000000109720989910689356372389112040345600000000001097842085103045994623901120403456000000000010979019590000000000000011204034560000000000109643437210324587580000112040345600000000001083963343104760345700001120403456000000000010417711610000000000000011204034560000000000109407224510465412160000)
 (.leaf 11204034560000000000000000000000000000000000112040345600000000001016887194000000000000001120403456000000000000000000000000000000000011204034560000000000000000000000000000000000112040345600000000000000000000000000000000001120403456000000000000000000000000000000000011204034560000000000103353019300000000000000112040345600000000000000000000000000000000001120403456000000000000000000000000000000239111204034560000000000000000000000000000000000112040345600000000000000000000104339808900001120403456000000000000000000000000000000000011204034560000000000000000000000000000000000112040345600000000000000000000104394593623921120403456000000000000000000001050530094239311204034561050132523102769172210745248132394))
 (.node 1 (.leaf 11204034561008689712000000000010617568410000109366476800000000000000000000000000000000001086324736000000000000000000000000000000000011067719680000000000000000000000000000002395111856844800000000000000000000101601399023961120403456000000000000000000000000000000239710687563060000000000000000000000000000000000110834483200000000000000000000000000000000001065829857000000000000000000000000000000000010863247360000000000000000000000000000000000112040345600000000000000000000000000000000001120403456000000000000000000000000000000239811204034560000000000105834201710233028402399112040345600000000000000000000000000000000001120403456000000000000000000000000000000000011204034560000000000000000000000000000000000)
 (.leaf 11204034560000000000000000000000000000000000112040345600000000000000000000000000000000001120403456000000000010685048160000000000000011204034560000000000000000000000000000000000112040345600000000000000000000000000000000001120403456000000000000000000000000000000000011204034560000000000000000000000000000000000112040345600000000001052448181000000000000001120403456000000000000000000001053475137000011204034560000000000106852914300000000000000112040345600000000001076754593000000000000001120403456000000000000000000001043914662240011204034560000000000000000000010412307232401112040345600000000000000000000104824364624021120403456000000000000000000001041614042240311204034560000000000000000000000000000002404)))))
 (.node 8 (.node 4 (.node 2 (.node 1 (.leaf 11204034560000000000000000000010402296002405112040345600000000000000000000102050534524061120403456000000000010868228101055928366240711204034560000000000000000000010198842532408112040345600000000001089066343103614344424091120403456000000000010899368711026770665000011204034560000000000000000000000000000000000112040345600000000000000000000104086821700001120403456000000000000000000001043282494000011204034560000000000104136179710293653432410107737987900000000000000000000103798413400001075499447000000000000000000000000000000000011204034560000000000000000000000000000000000112040345600000000000000000000000000000000001120403456000000000000000000000000000000241111204034560000000000000000000010408532430000)
 (.leaf 11204034560000000000000000000000000000000000112040345600000000000000000000000000000000001120403456000000000000000000000000000000000011204034560000000000000000000000000000000000112040345600000000000000000000000000000000001120403456000000000000000000000000000000000011204034560000000000000000000000000000000000112040345600000000000000000000000000000000001120403456000000000000000000000000000000000011204034560000000000000000000000000000000000112040345600000000000000000000000000000000001120403456000000000000000000000000000000000011204034560000000000000000000000000000000000112040345600000000000000000000000000000000001120403456000000000000000000000000000000000011204034560000000000000000000000000000002412))
 (.node 1 (.leaf 11204034560000000000000000000000000000000000112001024000000000000000000000000000000000001112801280109768273810162429490000000000000010440140070000000000000000000000000000000000112040345600000000001053776937000000000000001120403456000000000010685652140000000000000011204034560000000000000000000000000000000000112040345600000000000000000000000000000000001120403456000000000000000000000000000000000011051991040000000000000000000000000000000000107614721500000000000000000000000000000000001070639297000000000000000000000000000000000010089817700000000000000000000000000000000000112040345600000000000000000000103201074200001120403456000000000000000000000000000000000011204034560000000000000000000000000000000000)
 (.leaf 11204034561081543196000000000000000000000000112040345610781706860000000000000000000000001120403456107050820900000000000000000000000011204034560000000000000000000000000000000000112040345600000000000000000000000000000000001120403456097943024800000000001023054231000011204034560000000000000000000010815808030000112040345610797608680000000000102685050000001120403456000000000000000000000000000000000011204034560000000000000000000000000000000000112040345600000000000000000000000000000000001120403456000000000000000000000000000000000011204034561083331005000000000000000000000000112040345600000000000000000000000000000000001120403456000000000000000000000000000000000011204034560000000000000000000000000000000000)))
 (.node 2 (.node 1 (.leaf 11204034560000000000000000000000000000000000112040345600000000000000000000000000000000001120403456000000000000000000000000000000000011204034560000000000000000000000000000000000112040345600000000000000000000000000000000001120403456000000000000000000000000000000000011204034560000000000000000000000000000000000112040345600000000000000000000000000000000001120403456000000000000000000000000000000000011204034560000000000000000000000000000000000112040345610552734310000000000103475769600001120403456104173727100000000000000000000000011204034561057940455000000000010432694362413112040345600000000000000000000000000000024141120403456000000000000000000000000000000000011204034560000000000104460315500000000000000)
 (.leaf 11204034560000000000000000000000000000000000112040345600000000000000000000000000000000001120403456000000000000000000000000000000000011204034560000000000000000000000000000000000112040345600000000000000000000000000000000001120403456000000000000000000001026017302000011204034560000000000109723821010705369970000112040345600000000001097535377107123530200001120403456000000000010970364641081159344000011204034560000000000109720339710719805450000112040345600000000001097317063000000000000001120403456000000000010967880561066048407000011204034560000000000109705785510791463960000112040345600000000001097399796107344498800001120403456000000000010973915120000000000241511204034560000000000109635017100000000002416))
 (.node 1 (.leaf 11204034560000000000106693279110361357690000112040345600000000001058209477000000000000001120403456000000000010658405940000000000000011204034560000000000105728337500000000000000112040345600000000000000000000000000000000001120403456000000000000000000001033640811000011204034560000000000000000000000000000000000112040345600000000000000000000000000000000001120403456000000000000000000000000000000000011204034560000000000101688719400000000000000112040345600000000001030215015000000000000001120403456000000000000000000000000000000000011204034560000000000000000000000000000000000112040345609775061020000000000000000000024171120403456000000000000000000000000000000000011204034560000000000000000000000000000002418)
 (.leaf 11204034560000000000000000000000000000000000112040345600000000000000000000000000000024191120403456000000000000000000000000000000242011204034560000000000000000000010462223572421112040345600000000000000000000106793370624221120403456000000000000000000001071518939000011204034560000000000000000000010675712882423112040345600000000000000000000000000000000001090519040000000000000000000000000000000000011200102400000000000000000000000000000002424112040345600000000000000000000000000000024251120403456000000000000000000000000000000000011204034560000000000000000000000000000000000111935488000000000000000000000000000000000001120403456000000000000000000001032870041000011204034560000000000000000000000000000000000))))
 (.node 4 (.node 2 (.node 1 (.leaf 11204034560000000000000000000000000000000000112040345600000000000000000000000000000000001120403456000000000000000000001018876366000011204034560000000000000000000000000000000000112040345600000000000000000000000000000000001120403456000000000000000000000000000000000011204034560000000000000000000000000000000000112040345600000000001079803013000000000000001120403456000000000010985825890000000000000011204034560000000000109812069200000000000000112040345600000000000000000000103252881624261120403456000000000000000000001052497534242711204034560000000000108210736300000000002428112040345600000000001070086907000000000000001120403456000000000011048812280000000000000011204034560000000000108906403600000000000000)
 (.leaf 11204034560000000000110778305710314485000000112040345610654388970000000000000000000000001120403456000000000010896636120000000000000011204034560000000000000000000000000000000000112040345600000000000000000000101057606200001120403456000000000000000000000000000000000011204034560000000000000000000000000000002429112040345600000000001085127682000000000000001102053376000000000000000000000000000000000011204034560000000000000000000000000000002430112040345600000000000000000000000000000024311120403456000000000000000000000000000000000011204034560000000000000000000000000000000000112040345600000000000000000000000000000000001120403456000000000000000000000000000000000011204034560000000000000000000010542662000000))
 (.node 1 (.leaf 11204034560000000000000000000000000000000000112040345600000000000000000000000000000000001120403456000000000000000000000000000000000011204034560000000000000000000000000000000000112040345600000000000000000000000000000000001120403456000000000000000000000000000000000011204034560000000000000000000000000000000000112040345600000000000000000000000000000000001120403456000000000000000000000000000000000011204034560000000000104965980800000000000000112040345600000000000000000000000000000000001120403456000000000000000000000000000000000011204034560000000000000000000000000000000000112040345600000000000000000000000000000000001120403456000000000000000000000000000000000011204034560000000000000000000000000000000000)
 (.leaf 11200102400000000000000000000000000000000000109681049600000000000000000000000000000000001072789885000000000000000000000000000000000011175198720000000000000000000010370978910000112040345600000000000000000000000000000024321120403456106701075500000000000000000000000011204034560000000000101688719400000000000000112040345600000000000000000000000000000000001120403456000000000010168335070000000000000011204034560000000000000000000000000000000000112040345600000000000000000000000000000000001120403456111083458100000000000000000000000011204034560000000000000000000000000000000000112040345600000000000000000000105937989700001120403456000000000010780359520000000000000011204034560000000000000000000000000000000000)))
 (.node 2 (.node 1 (.leaf 11204034560000000000000000000000000000000000112040345600000000000000000000000000000000001120403456000000000000000000000000000000000011204034560000000000000000000000000000000000112040345600000000000000000000000000000000001120403456000000000000000000000000000000000011204034560000000000000000000000000000000000112040345600000000000000000000000000000000001120403456000000000000000000000000000000000011204034560000000000000000000000000000000000112040345600000000000000000000105805594200001120403456000000000000000000000000000000000011204034560000000000000000000000000000000000112040345600000000000000000000000000000000001120403456106799920100000000000000000000000011204034561062877469000000000000000000000000)
 (.leaf 11204034560000000000000000000000000000000000112040345600000000000000000000105289779300001120403456000000000010942075110000000000000011204034560000000000109785634610509309040000112040345600000000001097788922105926296900001120403456000000000010978838181039678376000011204034560000000000109772391110659261890000112040345600000000001097439746107689064300001120403456000000000010969664191080740380243311204034560000000000109666621210580300532434112040345600000000000992634051104271552700001120403456000000000010634473240000000000000011204034560000000000103672457510578735380000112040345600000000000000000000000000000000001120403456000000000000000000000000000000000011204034560000000000000000000010407773460000))
 (.node 1 (.leaf 11204034560000000000000000000000000000000000112040345600000000001045569523000000000000001120403456000000000000000000001029764379243511204034560000000000000000000000000000000000112040345600000000000000000000000000000000001120403456000000000000000000000000000000000011204034560000000000000000000000000000000000112040345600000000000000000000000000000024361120403456000000000000000000000000000000243711204034560000000000000000000000000000002438112040345600000000000000000000103931904724391120403456000000000000000000001040497807244011204034560000000000000000000000000000002441112040345600000000000000000000105554194524421120403456000000000000000000000000000000244311204034560000000000000000000000000000002444)
 (.leaf 11204034560000000000000000000010363400180000112040345610891721381040751106103296364124451120403456000000000000000000001056312986244611141120000000000000000000000000000000000000111280128000000000000000000000000000000000001112801280000000000000000000000000000000244711185684480000000000000000000010430247252448111896166400000000000000000000104656624224491077936128000000000000000000000000000000000011204034560000000000000000000000000000000000112040345600000000000000000000000000000000001103626240000000000000000000000000000000000010905190400000000000000000000000000000000000112040345600000000000000000000000000000000001120403456000000000000000000000000000000000011204034560000000000000000000010279976150000))))))
 (.node 16 (.node 8 (.node 4 (.node 2 (.node 1 (.leaf 11204034560000000000000000000000000000000000112040345600000000000000000000000000000000001120403456000000000000000000001035736418000011204034560000000000000000000010207170420000112040345600000000000000000000102231941100001120403456000000000000000000000000000000000011204034560000000000000000000000000000000000112040345600000000001086616240102174078200001120403456000000000000000000000000000000000011204034560000000000000000000000000000002450112040345600000000000000000000102402305624511120403456000000000000000000000000000000000011204034560000000000106900897110196629452452112040345610582415051091082650103255995524531120403456000000000011080420821034960033000011204034560000000000110923682900000000000000)
 (.leaf 11204034561033756350110749718900000000000000112040345600000000001098328624000000000024541120403456105501174010834472340000000000000011204034560000000000108107808100000000000000112040345600000000001108733723105899090600001120403456000000000000000000000000000000000011204034560000000000000000000000000000000000112040345600000000000000000000000000000024551120403456000000000000000000000000000000000011204034560000000000000000000000000000000000112040345600000000000000000000000000000000001120403456000000000000000000000000000000000011204034560000000000000000000000000000000000112040345600000000000000000000000000000000001120403456000000000010573739720000000000000011204034560000000000000000000010445058920000))
 (.node 1 (.leaf 11204034560000000000000000000000000000000000112040345600000000000000000000000000000000001120403456000000000000000000000000000000000011204034560000000000000000000000000000000000112040345600000000000000000000000000000000001120403456000000000000000000000000000000000011204034560000000000000000000000000000000000112040345600000000000000000000000000000000001120403456000000000000000000000000000000000011204034560000000000000000000000000000000000111751987200000000001072474305000000000000001120403456000000000000000000000000000000000011204034560000000000000000000000000000000000112040345600000000000000000000000000000000001120403456000000000000000000000000000000000011204034560000000000000000000000000000000000)
 (.leaf 11204034560000000000000000000000000000000000112040345600000000000000000000000000000000001119617024000000000000000000000000000000000011156848640000000000000000000010406402600000110205337610993187841035623989107748046800001120403456000000000000000000000000000000000011204034560000000000101688719400000000000000112040345600000000000000000000000000000000001120403456000000000000000000000000000000000011204034560000000000000000000000000000000000112040345600000000000000000000000000000000001120403456000000000000000000001014166665000011204034560000000000000000000000000000000000112040345600000000000000000000000000000000001120403456111270251010171019431040852710000011204034561111671287104540846200000000002456)))
 (.node 2 (.node 1 (.leaf 11204034561090977910000000000000000000000000112040345600000000000000000000000000000000001120403456000000000000000000000000000000000011204034560000000000000000000000000000000000112040345600000000000000000000000000000000001120403456000000000000000000000000000000000011204034560000000000000000000000000000000000112040345600000000000000000000000000000000001120403456000000000000000000000000000000000011204034561094191078000000000000000000000000112040345600000000000000000000000000000000001120403456000000000000000000000000000000000011204034560000000000000000000000000000000000112040345600000000000000000000000000000000001120403456000000000000000000000000000000000011204034560000000000000000000000000000000000)
 (.leaf 11204034560000000000000000000000000000000000112040345600000000000000000000000000000000001120403456106198604600000000001056060060000011204034560000000000000000000000000000000000112040345600000000000000000000000000000000001120403456000000000010407309740000000000000011204034560000000000109077845810641821190000112040345600000000001097797521105987300100001120403456000000000010978180731029154512245711204034560000000000109607187910443608192458112040345600000000001096797703105527511324591120403456000000000010970148631072308513246011204034560000000000109711374410694145442461112040345600000000001097837996105303525624621120403456000000000010971740371077182773000011204034560000000000109683010410852282240000))
 (.node 1 (.leaf 11204034560000000000109754041010744472910000112040345600000000001097818073104020163300001120403456000000000010335704581049435487000011204034560000000000103861704510553577170000112040345600000000000000000000000000000000001120403456000000000000000000000000000000000011204034560000000000000000000000000000000000112040345600000000001041912090000000000000001120403456000000000010164040110000000000000011204034560000000000000000000000000000002463112040345600000000000000000000000000000024641120403456000000000000000000000000000000246511204034560000000000000000000000000000002466112040345610306372640000000000000000000024671120403456000000000000000000000000000000000011204034561063419759000000000010613204762468)
 (.leaf 11204034560000000000000000000010487367012469112040345600000000000000000000103115649924701120403456000000000000000000000000000000247111204034560000000000000000000000000000002472112040345600000000000000000000105698585024731120403456000000000000000000000000000000247411204034561064986013108355523710368240012475112040345610741175371037073541105442587224761120403456107978416810427643721070368344247711051991040000000000000000000000000000000000111201484800000000000000000000105436781500001096810496000000000000000000000000000000000011204034560000000000000000000009883556720000112040345600000000000000000000000000000000001120403456000000000000000000000000000000247811204034560000000000000000000000000000000000))))
 (.node 4 (.node 2 (.node 1 (.leaf 11204034560000000000000000000010405667530000112040345600000000000000000000000000000000001120403456000000000000000000000000000000000011204034560000000000000000000000000000000000112040345600000000000000000000102042644300001120403456000000000000000000000000000000000011204034560000000000000000000000000000000000112040345600000000000000000000104063872000001120403456000000000000000000000000000000000011204034560000000000000000000000000000000000112040345600000000001094856684000000000000001120403456000000000010849808810000000000000011204034560000000000105900807300000000000000112040345600000000000000000000000000000024791120403456000000000010685543091042012792000011204034560000000000110032621400000000000000)
 (.leaf 11204034560000000000110661421010208676882480112040345600000000001108127541107036243724811120403456000000000011081135421024413517000011204034560000000000110809922900000000002482112040345600000000001106656625103581179300001120403456000000000011047399331074020367000011204034560000000000110823059010632465630000112040345600000000001111660089103688038400001120403456000000000011157999580000000000000011141120000000000000000000000000000000002483112040345600000000000000000000000000000024841120403456000000000000000000000995056785000011204034560000000000000000000000000000000000112040345600000000000000000000000000000000001120403456000000000000000000000000000000000011204034560000000000000000000000000000000000))
 (.node 1 (.leaf 11204034560000000000000000000000000000000000112040345600000000000000000000000000000000001120403456000000000000000000000000000000000011204034560000000000000000000000000000000000112040345600000000000000000000000000000000001120403456000000000000000000000000000000000011204034560000000000000000000000000000000000112040345600000000000000000000000000000000001118961664000000000010686172231057590589000010597400960000000000000000000000000000000000109051904000000000001082648219000000000000001118961664000000000010921851220000000000000011204034561069517564000000000000000000000000112040345600000000000000000000000000000000001120403456000000000000000000000000000000000011204034560000000000000000000000000000000000)
 (.leaf 11204034560000000000000000000000000000000000112040345600000000000000000000000000000000001120403456000000000000000000000000000000000011189616640000000000000000000010238264010000111673344000000000000000000000000000000000001120403456000000000000000000000000000000000011204034560000000000000000000000000000000000112001024010870048471078643288108261811100001120403456000000000000000000000000000000000011204034560000000000000000000000000000000000112040345600000000000000000000000000000000001120403456000000000010300002660000000000000011204034561089424549000000000000000000000000112040345600000000000000000000000000000000001120403456108163305000000000000000000000000011204034560000000000000000000000000000000000)))
 (.node 2 (.node 1 (.leaf 11204034560000000000000000000000000000000000112040345600000000000000000000000000000000001120403456000000000000000000000000000000000011204034560000000000000000000000000000002485112040345600000000000000000000000000000000001120403456000000000000000000000000000000248611204034560000000000000000000000000000000000112040345600000000000000000000000000000000001120403456000000000000000000000000000000000011204034560000000000000000000000000000000000112040345600000000000000000000000000000000001120403456000000000000000000000000000000000011204034560000000000000000000000000000000000112040345600000000000000000000000000000000001120403456000000000000000000000000000000000011204034560000000000000000000000000000000000)
 (.leaf 11204034560000000000000000000010283792140000112040345600000000000000000000000000000000001120403456000000000000000000001043015815000011204034560000000000000000000000000000000000112040345600000000000000000000000000000000001120403456000000000000000000001033767598000011204034561035987317000000000010383954890000112040345600000000000000000000000000000000001120403456000000000000000000000000000000248711204034560000000000000000000000000000000000112040345600000000000000000000000000000000001120403456000000000010335436140000000000000011204034560000000000101737037800000000000000112040345600000000000000000000102469173900001120403456000000000010851809491082353988000011204034560000000000107585113910316898540000))
 (.node 1 (.leaf 11204034560000000000109015623300000000000000112040345600000000001096166041105583498324881120403456000000000010969727111085477039000011204034560000000000109569344810615132092489112040345600000000001097702520106710706900001120403456000000000010976216741060806012249011204034560000000000109766382710296833470000112040345600000000001096778934107729096024911120403456000000000010906014580000000000249211204034560000000000104379113800000000000000112040345600000000001028174905105778891800001120403456000000000010540319510000000000000011204034560000000000104894174300000000000000112040345600000000001032214859000000000000001120403456000000000010475492340000000000000011204034560000000000000000000010534650780000)
 (.leaf 11204034560000000000103037607600000000000000112040345600000000000000000000103489458300001120403456000000000000000000000000000000000011204034560000000000000000000000000000002493112040345600000000000000000000000000000024941120403456103751753300000000001057138322249511204034561061306954000000000010435657222496112040345600000000000000000000104202382424971120403456000000000000000000000000000000249811204034560000000000000000000010181406682499112040345600000000001083994381106288485725001120403456109101990100000000001065559727250111204034560000000000000000000010296208292502112040345600000000001034268390000000000025031120403456104901096610969629590000000000250411204034561097068304000000000000000000002505)))))
 (.node 8 (.node 4 (.node 2 (.node 1 (.leaf 11204034560000000000000000000010492080222506112040345610673050271052834057106833202125071114112000105707565600000000001011764908000010968104960000000000000000000000000000000000107038881300000000000000000000000000000000001067568731000000000000000000000000000000000010589774380000000000000000000000000000000000109051904000000000000000000000000000000000001086324736000000000000000000000000000000250810089817700000000000000000000000000000000000106884346400000000000000000000104141121300001120403456000000000000000000000000000000000011163402240000000000000000000000000000000000102189045600000000000000000000000000000000001115684864000000000000000000001041724200000011204034560000000000000000000000000000000000)
 (.leaf 11204034560000000000000000000000000000000000112040345600000000000000000000000000000000001120403456000000000000000000001026202894250911204034560000000000000000000010141070350000112040345600000000000000000000000000000000001120403456000000000000000000000000000000000011204034560000000000000000000000000000000000112040345600000000000000000000000000000000001120403456000000000000000000000000000000000011204034560000000000000000000000000000000000112040345600000000000000000000000000000000001120403456000000000000000000000000000000000011204034560000000000000000000010419730342510112040345600000000000000000000000000000025111120403456000000000011100353720000000000000011204034561070718712111196074110751283152512))
 (.node 1 (.leaf 11004805120000000000109300657709699936140000110755840000000000001099365456105335857400001099431936000000000010833612510000000000000011036262400000000000108864334710269248240000111896166400000000001111444396103477072025131120403456000000000011091067271056107817000011204034560000000000000000000000000000000000112040345600000000000000000000000000000000001120403456000000000000000000000000000000000011204034560000000000000000000000000000000000112040345600000000000000000000000000000000001120403456000000000000000000000000000000000011204034560000000000000000000000000000000000112040345600000000000000000000000000000000001120403456000000000000000000000000000000000011204034560000000000000000000000000000000000)
 (.leaf 11204034560000000000000000000000000000000000112040345600000000000000000000000000000000001120403456000000000000000000000000000000000011204034560000000000000000000000000000000000112040345600000000000000000000000000000000001120403456000000000000000000000000000000000011204034560000000000000000000000000000000000112040345600000000000000000000000000000000001120403456000000000000000000000000000000000011204034560000000000000000000000000000000000112040345600000000000000000000000000000000001120403456000000000000000000000000000000000011204034560000000000000000000000000000000000111358771200000000001074946428000000000000001120403456000000000000000000000000000000000011204034560000000000000000000000000000000000)))
 (.node 2 (.node 1 (.leaf 11204034560000000000107665770410513422580000112040345610606203630000000000105039463200001120403456000000000000000000000000000000000011204034561041130607000000000000000000002514112040345610534508550000000000000000000025151120403456000000000000000000000000000000000011204034561084623912000000000000000000000000112040345610551192150000000000000000000000001120403456000000000000000000000000000000000011204034560000000000000000000000000000000000112040345600000000000000000000000000000000001120403456000000000000000000000000000000000011204034560000000000000000000000000000000000112040345600000000000000000000000000000000001120403456000000000000000000000000000000000011204034560000000000000000000000000000000000)
 (.leaf 11075584001087792046000000000000000000000000112040345600000000000000000000000000000000001120403456000000000000000000000000000000000011204034560000000000000000000000000000000000112040345600000000000000000000000000000000001120403456000000000000000000001034752603000011204034560000000000000000000000000000000000112040345600000000000000000000000000000000001120403456000000000000000000000000000000000011204034560000000000000000000000000000000000112040345600000000000000000000000000000000001120403456000000000000000000000000000000000011204034560000000000000000000000000000000000112040345600000000000000000000102623847000001120403456000000000000000000000000000000000011204034560000000000000000000000000000000000))
 (.node 1 (.leaf 11204034560000000000000000000000000000000000112040345610384184020000000000106295247000001120403456000000000000000000000000000000000011204034560000000000000000000000000000000000112040345600000000000000000000000000000000001120403456000000000000000000000000000000000011204034560000000000000000000000000000000000112040345600000000000000000000102736433200001120403456000000000000000000000000000000000011204034560000000000000000000000000000000000112040345600000000000000000000102940977300001120403456000000000000000000001059160629000011204034561038086616106630364510359626460000112040345600000000001093987729107845010600001120403456000000000010967516711033660565251611204034560000000000109500705010514729880000)
 (.leaf 11204034560000000000109786242710488965820000112040345600000000001096504731106392282225171120403456000000000010911367560000000000000011204034560000000000108398284600000000000000112040345600000000001091432140107501278100001120403456000000000010884753651025462566000011204034560000000000109302838700000000000000112040345600000000001062720871000000000000001120403456000000000010386841531035980105000011204034560000000000106566946700000000000000112040345600000000001044160237105949414300001120403456000000000010574092040000000000000011204034560000000000104739488400000000000000112040345600000000000000000000000000000000001120403456000000000000000000000000000000000011204034560000000000000000000010443797610000))))
 (.node 4 (.node 2 (.node 1 (.leaf 11204034560000000000000000000000000000000000112040345600000000001030349233103254376200001120403456000000000000000000000000000000251811204034560945978895000000000010238361352519112040345600000000000000000000101840054225201120403456000000000000000000001034441563252111204034560000000000000000000000000000000000112040345610411272521081463957106999846925221120403456108202564610149947241060901754252311204034561099292412105319980110775951750000112040345600000000000000000000000000000025241120403456000000000000000000000000000000252511204034560000000000000000000000000000002526112040345600000000000000000000000000000025271120403456105367456200000000000000000000252811141120000000000000000000000010465269070000)
 (.leaf 10905190400000000000000000000000000000000000110205337600000000000000000000000000000000001057515807000000000000000000000000000000000010905190400000000000000000000000000000000000109681049600000000000000000000000000000000001042174016000000000000000000000000000000000011189616640000000000000000000000000000000000112040345600000000000000000000000000000000001112014848000000000000000000000000000000000010863247360000000000000000000000000000000000110362624000000000000000000000000000000000001120403456000000000000000000000000000000000011204034560000000000000000000000000000000000112040345600000000000000000000000000000000001120403456000000000000000000000000000000000011204034560000000000000000000000000000000000))
 (.node 1 (.leaf 11204034560000000000000000000000000000000000112040345600000000000000000000000000000000001120403456000000000000000000000000000000000011204034560000000000000000000000000000000000112040345610587974690000000000000000000025291120403456000000000000000000000000000000000011204034560000000000000000000000000000000000112040345600000000000000000000000000000025301118175232000000000011093698151074439407000011181752320000000000111066960410421467192531111568486400000000001106661815107458925425321099431936000000000000000000001044623759000011196170240000000000111355263710389465940000112040345600000000001105144001108256401400001109131264106134492110999625681052315296000010779361280000000000000000000000000000000000)
 (.leaf 11204034560000000000000000000000000000002533112040345600000000000000000000000000000000001120403456000000000000000000000000000000000011204034560000000000000000000000000000000000112040345600000000000000000000000000000000001120403456000000000000000000000000000000000011204034560000000000000000000000000000000000112040345600000000000000000000000000000000001120403456000000000000000000000000000000000011204034560000000000000000000000000000000000112040345600000000000000000000000000000000001120403456000000000000000000000000000000000011204034560000000000000000000000000000000000112040345600000000000000000000000000000000001120403456000000000000000000000000000000000011204034560000000000000000000000000000000000)))
 (.node 2 (.node 1 (.leaf 11204034560000000000000000000000000000000000112040345600000000000000000000000000000000001120403456000000000000000000000000000000000011204034560000000000107508609800000000000000112040345600000000000000000000000000000000001120403456000000000000000000000000000000000011204034560000000000000000000000000000000000112040345600000000000000000000000000000000001120403456000000000000000000000000000000000011204034560000000000000000000000000000000000112040345600000000000000000000000000000000001120403456109474685400000000000000000000000011204034561076160386000000000000000000000000112040345600000000000000000000000000000000001120403456000000000000000000000000000000000011204034560000000000000000000000000000000000)
 (.leaf 11204034560000000000000000000000000000000000112040345600000000000000000000102160623825341120403456000000000000000000000000000000000011167334401041130070000000000000000000000000112040345600000000000000000000000000000000001120403456000000000000000000000000000000000011204034561077617306000000000000000000000000112040345610799898730000000000000000000000001120403456107073392100000000000000000000000011204034560000000000000000000000000000000000112040345600000000000000000000000000000000001120403456000000000000000000000000000000000011204034560000000000000000000000000000000000112040345600000000000000000000000000000000001120403456000000000000000000000000000000000011204034560000000000000000000000000000000000))
 (.node 1 (.leaf 11204034560000000000000000000000000000000000112040345600000000000000000000000000000000001120403456000000000000000000000000000000000011204034560000000000000000000000000000000000110519910400000000000000000000000000000000001120403456000000000000000000000000000000000011204034560000000000000000000010533065400000112040345600000000000000000000000000000000001120403456000000000000000000000000000000000011204034560000000000000000000000000000000000112040345600000000000000000000000000000000001120403456000000000000000000000000000000000011204034560000000000000000000000000000000000112040345600000000000000000000000000000000001120403456000000000000000000000000000000000011204034560000000000000000000000000000000000)
 (.leaf 11204034560000000000000000000000000000000000112040345610540612100000000000000000000000001120403456000000000000000000000000000000000011204034560000000000000000000000000000000000112040345600000000000000000000000000000000001120403456000000000000000000000000000000000011204034560000000000000000000000000000000000112040345600000000000000000000102468480300001120403456000000000000000000001026726138000011204034560000000000000000000000000000000000112040345600000000000000000000000000000000001120403456000000000000000000000000000000000011204034560000000000000000000000000000000000112040345600000000000000000000000000000000001120403456000000000000000000000000000000000011204034560000000000000000000010716605970000))))))))
 (.node 64 (.node 32 (.node 16 (.node 8 (.node 4 (.node 2 (.node 1 (.leaf 11204034561076006350109883424800000000002535112040345610284999811085277838000000000000001120403456000000000000000000000000000000000011204034560000000000000000000000000000000000112040345600000000000000000000104313038100001120403456000000000010608300791050729379000011204034560000000000108827278010603981282536112040345600000000001078836645105837621700001120403456000000000000000000000000000000000011204034560000000000000000000000000000000000112040345600000000000978433815000000000000001120403456000000000010325235600000000000000011204034560000000000000000000010384039770000112040345600000000001036630622000000000000001120403456000000000010168871940000000000000011204034560000000000000000000010602145410000)
 (.leaf 11204034560000000000000000000010241542310000112040345600000000000000000000000000000000001120403456000000000010455963660000000000253711204034560000000000000000000010235029530000112040345600000000000000000000105416947125381120403456000000000000000000000000000000000011204034560000000000000000000000000000000000112040345600000000000000000000000000000025391120403456000000000000000000000000000000000011204034560000000000000000000000000000002540112040345610963174981060169056107900477725411120403456000000000000000000000000000000254211204034561076616227102957077010657540442543112040345600000000000000000000000000000025441120403456000000000000000000000000000000254511204034560000000000000000000000000000002546))
 (.node 1 (.leaf 11204034561044488668000000000010543261402547107793612800000000000000000000000000000000001087114607000000000000000000000000000000000011141120000000000000000000000000000000000000112040345600000000000000000000104897309300001115684864000000000000000000000000000000254811020533760000000000000000000000000000000000111751987200000000000000000000103688957800001120403456000000000010909081670000000000254911204034560000000000000000000000000000000000112040345600000000000000000000000000000000001120403456000000000000000000001024569692000011204034560000000000000000000000000000000000112040345600000000000000000000000000000025501120403456000000000010713829470000000000000011204034560000000000000000000010273060350000)
 (.leaf 11204034560000000000000000000000000000002551111817523200000000001101879837105035347900001093664768000000000010888406891041416601000011148984320000000000110800053210822051000000111122841600000000001107316782107267114700001105199104105971956110970042731077411544000011204034560000000000108208681110737538560000111817523210519729161106935965107702088400001085240048000000000000000000000000000000255210994319360000000000000000000000000000000000112040345600000000000000000000000000000000001120403456000000000000000000000000000000000011204034560000000000000000000010520103920000112040345600000000000000000000000000000000001120403456000000000000000000000000000000000011204034560000000000000000000000000000000000)))
 (.node 2 (.node 1 (.leaf 11204034560000000000000000000000000000000000112040345600000000000000000000000000000000001120403456000000000000000000000000000000000011204034560000000000000000000000000000000000112040345600000000000000000000000000000000001120403456000000000000000000000000000000000011204034560000000000000000000000000000000000112040345600000000000000000000000000000000001120403456000000000000000000000000000000000011204034560000000000000000000000000000000000112040345600000000000000000000000000000000001120403456000000000000000000000000000000000011204034560000000000000000000000000000000000112040345600000000000000000000000000000000001120403456000000000000000000000000000000000011204034560000000000000000000000000000000000)
 (.leaf 11204034560000000000000000000000000000000000112040345600000000000000000000000000000000001120403456000000000000000000000000000000000011204034560000000000000000000010512281350000112040345600000000000000000000000000000000001120403456000000000000000000000000000000000011204034560000000000000000000000000000000000112040345600000000000000000000000000000000001120010240000000000000000000000000000000000011204034560000000000000000000000000000000000112040345600000000000000000000000000000000001120403456000000000000000000000000000000000011204034560000000000000000000000000000000000112040345600000000000000000000000000000000001120403456000000000000000000000000000000000011204034560000000000000000000000000000000000))
 (.node 1 (.leaf 11204034560000000000000000000000000000000000112040345600000000000000000000000000000000001120403456000000000000000000000000000000000011204034560000000000000000000000000000000000112040345600000000000000000000000000000000001120403456000000000000000000000000000000000011204034560000000000000000000000000000000000111856844800000000000000000000000000000000001099431936000000000000000000000000000000000011204034560000000000000000000010429215090000112040345600000000000000000000000000000000001120403456000000000000000000000000000000000011204034560000000000000000000000000000000000112040345600000000000000000000000000000000001120403456000000000000000000000000000000000011204034560000000000000000000000000000000000)
 (.leaf 11204034560000000000000000000000000000000000112040345600000000000000000000000000000000001120403456000000000000000000000000000000000011204034560000000000000000000000000000000000112040345600000000000000000000000000000000001120403456000000000000000000000000000000000011204034560000000000000000000000000000000000112040345600000000000000000000103219558300001120403456000000000000000000000000000000000011204034560000000000000000000000000000000000112040345600000000000000000000000000000000001120403456000000000000000000000000000000000011204034560000000000000000000000000000000000112040345600000000000000000000000000000000001120403456000000000000000000000000000000000011204034560000000000000000000000000000000000))))
 (.node 4 (.node 2 (.node 1 (.leaf 11204034560000000000000000000010156244700000112040345600000000000000000000000000000000001120403456000000000000000000001049052834000011204034560000000000101688719410256690940000112040345600000000000000000000102506206700001120403456000000000010168871941041848793000011204034560000000000102881915010605101600000112040345600000000001031476661000000000000001120403456000000000000000000001047248374000011204034560000000000103605348600000000000000112040345610515919730000000000000000000025531120403456105461318100000000001029592850255411204034561054209185000000000000000000002555112040345610375422290000000000103731430900001120403456000000000000000000000000000000000011204034560000000000000000000010432178322556)
 (.leaf 11204034561095014607104911958210804643132557112040345600000000000000000000000000000025581120403456000000000000000000000000000000255911204034560000000000000000000000000000002560112040345600000000000000000000000000000025611120403456108650515410537802920000000000256211204034560000000000000000000010273402482563112040345600000000000000000000000000000025641119617024000000000000000000000000000000256510089817700000000000000000000000000000000000100898177000000000000000000000000000000000001070950934000000000000000000000000000000000011200102400000000000000000000000000000000000111358771200000000000000000000000000000000001086324736000000000000000000000000000000000011051991040000000000000000000000000000000000))
 (.node 1 (.leaf 11204034560000000000000000000000000000000000112040345600000000000000000000000000000000001120403456000000000000000000000000000000256611204034560000000000000000000000000000002567112040345600000000000000000000000000000000001120403456000000000000000000000000000000000011204034560000000000000000000000000000002568112040345600000000000000000000000000000025691120403456000000000000000000000000000000000011204034560000000000000000000000000000000000112040345600000000000000000000000000000000001120403456000000000000000000000000000000000011204034560000000000000000000000000000000000112040345600000000000000000000000000000000001120010240000000000010925195131044952007257011204034560000000000110008603810759026392571)
 (.leaf 11204034560000000000110592587210915145002572112040345600000000001107587996108615044025731110441984000000000010997730381062480648257411036262400000000000000000000000000000000000109051904000000000000000000000000000000000001077936128000000000000000000000000000000000011051991040000000000000000000010243961880000112040345600000000000000000000000000000000001120403456000000000000000000000000000000000011204034560000000000000000000000000000000000112040345600000000000000000000000000000000001120403456000000000000000000000000000000000011204034560000000000000000000000000000000000112040345600000000000000000000000000000000001120403456000000000000000000000000000000000011204034560000000000000000000000000000000000)))
 (.node 2 (.node 1 (.leaf 11204034560000000000000000000000000000000000112040345600000000000000000000000000000000001120403456000000000000000000000000000000000011204034560000000000000000000000000000000000112040345600000000000000000000000000000000001120403456000000000000000000000000000000000011204034560000000000000000000000000000000000112040345600000000000000000000000000000000001120403456000000000000000000000000000000000011204034560000000000000000000000000000000000112040345600000000000000000000000000000000001120403456000000000000000000000000000000000011204034560000000000000000000000000000000000112040345600000000000000000000000000000000001120403456000000000000000000000000000000000011204034560000000000000000000000000000000000)
 (.leaf 11204034560000000000000000000000000000000000112040345600000000000000000000000000000000001120403456000000000000000000000000000000000011204034560000000000000000000000000000000000112040345600000000000000000000000000000000001120403456000000000000000000000000000000000011204034560000000000000000000000000000000000112040345600000000000000000000000000000000001120403456000000000000000000000000000000000011204034560000000000000000000000000000000000112040345600000000000000000000000000000000001120403456000000000000000000000000000000000011204034560000000000000000000000000000000000112040345600000000000000000000000000000000001120403456000000000000000000000000000000000011204034560000000000000000000000000000000000))
 (.node 1 (.leaf 11204034561081584933000000000000000000000000112040345610641464640000000000000000000000001112801280000000000000000000000000000000000011204034560000000000000000000000000000000000112040345600000000000000000000000000000000001120403456000000000000000000000000000000000011204034560000000000000000000000000000000000112040345600000000000000000000000000000000001120403456000000000000000000000000000000000011204034560000000000000000000000000000000000112040345600000000000000000000000000000000001120403456000000000000000000000000000000000011204034560000000000000000000000000000000000112040345600000000000000000000000000000000001120403456000000000000000000000000000000000011204034560000000000000000000000000000000000)
 (.leaf 11171266560000000000000000000000000000000000109366476800000000000000000000000000000000001119354880000000000000000000000000000000000011204034560000000000000000000000000000000000112040345600000000000000000000000000000000001120403456000000000000000000000000000000000011204034560000000000000000000000000000000000112040345600000000000000000000000000000000001120403456000000000000000000000000000000000011204034560000000000000000000000000000000000112040345600000000000000000000000000000000001120403456000000000000000000000000000000257511204034560000000000000000000000000000000000112040345600000000000000000000000000000000001120403456000000000000000000000000000000000011204034560000000000000000000000000000000000)))))
 (.node 8 (.node 4 (.node 2 (.node 1 (.leaf 11204034560000000000000000000000000000000000112040345600000000000000000000000000000000001120403456000000000000000000000000000000000011204034560000000000000000000000000000000000112040345600000000000000000000000000000000001120403456000000000000000000000000000000000011204034560000000000000000000000000000000000112040345600000000000000000000000000000000001120403456000000000000000000001059625873000011204034561096656338000000000000000000000000112040345600000000000000000000000000000000001120403456000000000000000000000000000000000011204034560000000000102511474100000000000000112040345610422750151016726133000000000025761120403456107073942410618853651067906633257711204034560000000000000000000000000000000000)
 (.leaf 11204034560000000000000000000010580864330000112040345600000000000000000000000000000000001120403456000000000000000000000000000000000011204034561078739111103825465710501161262578112040345610541342921060700894102570342025791120403456000000000000000000001074713042000011204034560000000000000000000010428934670000112040345600000000001016887194000000000000001120403456000000000000000000000000000000000011204034560000000000000000000010371842750000112040345600000000000000000000000000000000001120403456000000000000000000001038802724000011204034560000000000000000000010171019850000112040345600000000000000000000000000000000001120403456000000000000000000000000000000000011204034560000000000000000000000000000002580))
 (.node 1 (.leaf 11204034560000000000000000000000000000000000112040345600000000000000000000000000000000001120403456000000000000000000000000000000000011204034560000000000000000000000000000000000112040345600000000000000000000000000000000001120403456000000000000000000001016427458258111204034560000000000000000000000000000002582112040345600000000000000000000000000000025831120403456000000000000000000000000000000258411204034560000000000000000000010602064662585112040345600000000000000000000000000000025861120403456000000000000000000000000000000258711204034560000000000000000000000000000002588112040345600000000000000000000000000000025891120403456000000000000000000000000000000259010089817700000000000000000000000000000000000)
 (.leaf 10089817700000000000000000000000000000000000104412158200000000000000000000000000000000001049211454000000000000000000000000000000000010936647680000000000000000000000000000000000112040345600000000000000000000102788627200001120403456000000000000000000000000000000000011067719680000000000000000000000000000000000108632473600000000000000000000000000000000001120403456000000000000000000000000000000259111204034560000000000000000000000000000000000112040345600000000000000000000000000000000001120403456000000000000000000000000000000000011204034560000000000000000000000000000000000112040345600000000000000000000104731322500001120403456000000000000000000000000000000259211204034560000000000000000000000000000002593)))
 (.node 2 (.node 1 (.leaf 11204034560000000000000000000000000000002594112040345600000000000000000000000000000000001120403456000000000000000000000000000000000011204034560000000000000000000000000000000000112040345600000000000000000000000000000000001120403456000000000000000000000000000000000011204034561016441055000000000010334726450000112040345600000000001099408448106848979400001112801280000000000010989921631060029826000011204034560000000000110825342210801181402595112040345600000000001107216984107853218825961065439367000000000000000000000000000000000010968104960000000000000000000000000000000000111122841600000000000000000000000000000000001102053376000000000000000000000000000000000010968104960000000000000000000000000000000000)
 (.leaf 10863247360000000000000000000000000000000000110519910400000000000000000000000000000000001093664768000000000000000000000000000000000011204034560000000000000000000000000000000000112040345600000000000000000000000000000000001120403456000000000000000000000000000000000011204034560000000000000000000000000000000000112040345600000000000000000000000000000000001120403456000000000000000000000000000000000011204034560000000000000000000000000000000000112040345600000000000000000000000000000000001120403456000000000000000000000000000000000011204034560000000000000000000000000000000000112040345600000000000000000000000000000000001120403456000000000000000000000000000000000011204034560000000000000000000000000000000000))
 (.node 1 (.leaf 11204034560000000000000000000000000000000000112040345600000000000000000000000000000000001120403456000000000000000000000000000000000011204034560000000000000000000000000000000000112040345600000000000000000000000000000000001120403456000000000000000000000000000000000011204034560000000000000000000000000000000000112040345600000000000000000000000000000000001120403456000000000000000000000000000000000011204034560000000000000000000000000000000000112040345600000000000000000000000000000000001120403456000000000000000000000000000000000011204034560000000000000000000000000000000000112040345600000000000000000000000000000000001120403456000000000000000000000000000000000011204034560000000000000000000000000000000000)
 (.leaf 11204034560000000000000000000000000000000000112040345600000000000000000000000000000000001120403456000000000000000000000000000000000011204034560000000000000000000000000000000000112040345600000000000000000000000000000000001120403456000000000000000000000000000000000011204034560000000000000000000000000000000000112040345600000000000000000000000000000000001120403456000000000000000000000000000000000011204034560000000000000000000000000000000000112040345600000000000000000000000000000000001120403456000000000000000000000000000000000011204034560000000000000000000000000000000000111817523200000000000000000000000000000000001118568448000000000000000000000000000000000011204034560000000000000000000000000000000000))))
 (.node 4 (.node 2 (.node 1 (.leaf 11204034560000000000000000000000000000000000112040345600000000000000000000000000000000001120403456000000000000000000000000000000000011204034560000000000000000000000000000000000112040345600000000000000000000000000000000001120403456000000000000000000000000000000000011204034560000000000000000000000000000000000112040345600000000000000000000000000000000001120403456000000000000000000000000000000000011204034560000000000000000000000000000000000112040345600000000000000000000000000000000001120403456000000000000000000000000000000000011204034560000000000000000000000000000000000112040345600000000000000000000000000000000001120403456000000000000000000000000000000000011204034560000000000000000000000000000000000)
 (.leaf 11204034560000000000000000000000000000000000112040345600000000000000000000000000000000001120403456000000000000000000000000000000000011204034560000000000000000000000000000000000112040345600000000000000000000000000000000001120403456000000000000000000000000000000000011204034560000000000000000000000000000000000112040345600000000000000000000000000000000001120403456000000000000000000000000000000000011204034560000000000000000000000000000000000112040345610589239520000000000000000000000001120403456000000000000000000000000000000000011204034560000000000000000000000000000000000112040345600000000000000000000000000000000001120403456000000000000000000000000000000000011204034560000000000000000000010327530420000))
 (.node 1 (.leaf 11204034561087871669000000000010299259690000112040345600000000000000000000101831008000001120403456000000000000000000000000000000000011204034560000000000000000000000000000000000112040345600000000001083953906104169943700001120403456000000000000000000001044570601000011204034560000000000106753761000000000000000112040345600000000000000000000102822235000001120403456000000000000000000001078567553000011204034560000000000000000000010576896700000112040345600000000000000000000104825389925971120403456000000000000000000001045977302259811204034560000000000000000000010661868680000112040345600000000000000000000000000000000001120403456000000000000000000000000000000000011204034560000000000000000000000000000000000)
 (.leaf 11204034560000000000000000000000000000000000112040345600000000000000000000000000000000001120403456000000000000000000000000000000000011204034560000000000000000000000000000000000112040345600000000000000000000000000000000001120403456000000000000000000000000000000000011204034560000000000000000000000000000002599112040345600000000000000000000100851248600001120403456000000000000000000000000000000260011204034561075864528105091138810273870362601112040345600000000000000000000104013855426021120403456000000000000000000000000000000260311204034560000000000000000000000000000000000112040345600000000000000000000102218436426041120403456000000000000000000000000000000260511120148480000000000000000000000000000002606)))
 (.node 2 (.node 1 (.leaf 11004805120000000000000000000000000000000000109051904000000000000000000000000000000000001074964380000000000000000000000000000000000011112284160000000000000000000000000000000000111607808000000000000000000000000000000000001086324736000000000000000000000000000000000010764905610000000000000000000000000000000000112040345600000000000000000000000000000000001120403456000000000000000000000000000000000011204034560000000000000000000000000000000000112040345600000000000000000000000000000000001120403456000000000000000000000000000000000011204034560000000000000000000000000000000000112040345600000000000000000000000000000000001120403456000000000000000000000000000000000011204034560000000000000000000010248137570000)
 (.leaf 11204034560000000000000000000010438139242607112040345600000000000000000000000000000000001120403456000000000011004033891059080681000011196170240000000000110745362110534471962608112040345600000000001108124893107785130226091120010240000000000011078087741072136098261010905190400000000000108310498900000000002611108632473600000000000000000000000000000000001077936128000000000000000000000000000000000011036262400000000000000000000000000000000000109051904000000000000000000000000000000000001096810496000000000000000000000000000000000011200102401091738375000000000000000000000000112040345600000000000000000000000000000000001120403456000000000000000000000000000000000011204034560000000000000000000000000000000000))
 (.node 1 (.leaf 11204034560000000000000000000000000000000000112040345600000000000000000000000000000000001120403456000000000000000000000000000000000011204034560000000000000000000000000000000000112040345600000000000000000000000000000000001120403456000000000000000000000000000000000011204034560000000000000000000000000000000000112040345600000000000000000000000000000000001120403456000000000000000000000000000000000011204034560000000000000000000000000000000000112040345600000000000000000000000000000000001120403456000000000000000000000000000000000011204034560000000000000000000000000000000000112040345600000000000000000000000000000000001120403456000000000000000000000000000000000011204034560000000000000000000000000000000000)
 (.leaf 11204034560000000000106642192500000000000000112040345600000000000000000000000000000000001120403456000000000000000000000000000000000011204034560000000000000000000000000000000000112040345600000000000000000000000000000000001120403456000000000000000000000000000000000011204034560000000000000000000000000000000000112040345600000000000000000000000000000000001120403456000000000000000000000000000000000011204034560000000000000000000000000000000000112040345600000000000000000000000000000000001120403456000000000000000000000000000000000011204034560000000000000000000000000000000000112040345600000000000000000000000000000000001120403456000000000000000000000000000000000011067719680000000000000000000000000000000000))))))
 (.node 16 (.node 8 (.node 4 (.node 2 (.node 1 (.leaf 11200102400000000000000000000000000000000000112040345600000000001016887194000000000000001120403456000000000000000000000000000000000011204034560000000000102524895900000000000000112040345600000000001035999799000000000000001120403456000000000000000000000000000000000011204034560000000000000000000000000000000000112040345600000000000000000000000000000000001120403456000000000000000000000000000000000011204034560000000000000000000000000000000000112040345600000000000000000000000000000000001120403456000000000000000000000000000000000011091312640000000000000000000000000000000000111280128000000000000000000000000000000000001120403456000000000000000000000000000000000011204034560000000000000000000000000000000000)
 (.leaf 11204034560000000000000000000000000000000000112040345600000000000000000000000000000026121120403456000000000000000000000000000000000011204034560000000000000000000000000000000000112040345600000000000000000000000000000000001120403456000000000010250878980000000000000011204034560000000000000000000000000000000000112040345600000000000000000000000000000000001120403456000000000000000000000000000000000011204034560000000000000000000000000000000000112040345600000000000000000000000000000000001120403456000000000000000000000000000000000011204034560000000000000000000000000000000000112040345600000000000000000000000000000000001120403456000000000000000000001036840309000011204034560000000000000000000000000000000000))
 (.node 1 (.leaf 11204034561083660541000000000000000000000000112040345600000000001025114741000000000000001120403456000000000000000000000000000000000011204034560000000000000000000000000000000000112040345600000000000000000000000000000000001120403456000000000000000000000000000000000011204034560000000000000000000000000000000000112040345600000000000000000000102889545600001120403456000000000000000000001041947104000011204034560000000000099349304410611562600000112040345600000000000000000000105450218700001120403456107685973500000000001027010960000011204034560000000000000000000000000000002613112040345600000000000000000000000000000000001120403456000000000010794037151022910637000011204034560000000000000000000000000000000000)
 (.leaf 11204034560000000000000000000000000000000000112040345600000000000000000000104876271900001120403456000000000000000000001018939595000011204034560000000000102345044100000000000000112040345600000000001075787386000000000000001120403456000000000000000000000000000000000011204034560000000000000000000000000000000000112040345600000000000000000000000000000000001120403456000000000000000000000000000000000011204034560000000000000000000000000000000000112040345600000000000000000000000000000000001120403456000000000010663061621071449689000011204034560000000000000000000000000000000000112040345600000000000000000000000000000026141120403456000000000000000000000000000000000011204034560000000000000000000000000000000000)))
 (.node 2 (.node 1 (.leaf 11204034560000000000000000000000000000000000112040345600000000000000000000000000000000001120403456000000000000000000000000000000000011204034560000000000000000000010311890002615112040345600000000000000000000000000000000001120403456000000000000000000000000000000261611204034560000000000000000000010373209492617112040345600000000000000000000000000000000001120403456000000000000000000000000000000000011204034560000000000000000000000000000000000112040345600000000000000000000000000000000001120403456000000000000000000000000000000261811204034560000000000000000000010341525292619109051904000000000000000000000000000000000001075779669000000000000000000000000000000000011163402240000000000000000000000000000000000)
 (.leaf 11204034560000000000000000000000000000000000112040345600000000000000000000000000000000001116078080000000000000000000000000000000000010779361280000000000000000000010426953480000111411200000000000000000000000105095086700001120010240000000000000000000000000000000262011204034560000000000000000000000000000000000112040345600000000000000000000000000000000001120403456000000000000000000000000000000000011204034560000000000000000000010483264440000112040345600000000000000000000000000000000001120403456104250405700000000000000000000000011204034560000000000000000000000000000000000109366476800000000001079160865104941560500001120403456000000000011077480351059210452262111120148480000000000110051983410594953912622))
 (.node 1 (.leaf 11204034560000000000000000000000000000000000112040345600000000000000000000000000000000001120403456000000000000000000000000000000000011204034560000000000000000000000000000000000112040345600000000000000000000000000000000001120403456000000000000000000000000000000000011204034560000000000000000000000000000000000112040345600000000000000000000000000000000001120403456000000000000000000000000000000000011204034560000000000000000000000000000000000112040345600000000000000000000000000000000001120403456000000000000000000000000000000000011204034560000000000000000000000000000000000112040345600000000000000000000000000000000001120403456000000000000000000000000000000000011204034560000000000000000000000000000000000)
 (.leaf 11204034560000000000000000000000000000000000112040345600000000000000000000000000000000001120403456000000000000000000000000000000000011204034560000000000000000000000000000000000112040345600000000000000000000000000000000001120403456000000000000000000000000000000000011204034560000000000000000000000000000000000112040345600000000000000000000000000000000001120403456000000000000000000000000000000000011204034560000000000000000000000000000000000112040345600000000000000000000000000000000001120403456000000000000000000000000000000000011204034560000000000000000000000000000000000112040345600000000000000000000000000000000001120403456000000000000000000000000000000000011204034560000000000000000000000000000000000))))
 (.node 4 (.node 2 (.node 1 (.leaf 11204034560000000000000000000000000000000000112040345600000000000000000000000000000000001120403456107317471200000000000000000000000011120148480000000000000000000000000000000000112040345600000000000000000000000000000000001120403456000000000000000000000000000000000011204034560000000000000000000000000000000000112040345600000000000000000000000000000000001120403456000000000000000000000000000000000011204034560000000000000000000000000000000000112040345600000000000000000000000000000000001120403456000000000000000000000000000000000011204034560000000000000000000000000000000000112040345600000000000000000000000000000000001120403456000000000000000000000000000000000011204034560000000000000000000000000000000000)
 (.leaf 11204034560000000000000000000000000000000000112040345600000000000000000000000000000000001120403456000000000000000000000000000000000010863247361067268495000000000000000000000000110913126400000000000000000000000000000000001119617024000000000000000000000000000000000011204034560000000000000000000000000000000000112040345600000000000000000000000000000000001120403456000000000000000000000000000000000011204034560000000000000000000000000000000000112040345600000000000000000000000000000000001120403456000000000000000000000000000000000011204034560000000000000000000000000000000000112040345610925366350000000000000000000000001120403456000000000010300002660000000000000011204034560000000000000000000000000000000000))
 (.node 1 (.leaf 11204034560000000000000000000000000000000000112040345600000000000000000000000000000000001120403456000000000000000000001057283562000011204034560000000000110361816610436911050000112040345600000000001075011859103237216200001120403456000000000010718879421062188024000011204034561033032111107986760510499067170000112040345610527824511084417586104856236626231120403456109919896400000000001054934483000011204034561105642460000000000010497877970000112040345600000000000000000000000000000000001120403456000000000000000000000000000000000011204034560000000000108849591700000000000000112040345600000000000000000000000000000000001120403456000000000000000000000000000000000011204034560000000000000000000000000000000000)
 (.leaf 11204034561060079516110018523310292382810000112040345610769625131096366109000000000000001120403456000000000000000000000000000000000011204034560000000000000000000010211141030000112040345600000000000000000000000000000000001120403456000000000000000000000000000000262411204034560000000000000000000000000000000000112040345600000000000000000000102467577226251120403456000000000000000000001039017777000011204034560000000000000000000000000000002626112040345600000000000000000000000000000026271120403456000000000000000000000000000000262811204034561041321532000000000010374937542629112040345600000000000000000000000000000000001120403456000000000000000000000000000000000011204034560000000000108535312510125355872630)))
 (.node 2 (.node 1 (.leaf 11204034560000000000000000000000000000000000112040345600000000000000000000000000000026311118568448000000000000000000001078943146263210863247360000000000000000000000000000000000106835960900000000000000000000000000000000001103626240000000000000000000000000000000000011200102400000000000000000000010576123680000112040345600000000000000000000000000000000001113587712000000000000000000000000000000000011181752320000000000000000000010638672782633112040345600000000000000000000000000000000001120403456000000000000000000001049587347000011204034560000000000000000000010380831430000112040345600000000000000000000000000000000001120403456000000000000000000001040109425263411204034560000000000000000000000000000000000)
 (.leaf 11204034560000000000000000000010243608970000112040345600000000000000000000000000000000001120403456000000000000000000000000000000000011204034560000000000000000000010208204470000112040345600000000001017316691103581715500001118175232000000000011089182981068951308000011020533760000000000000000000000000000000000110205337600000000000000000000103830246500001086324736000000000000000000001049624144000010905190400000000000000000000010486922300000110362624000000000000000000000000000000000001120403456000000000000000000000000000000000011204034560000000000000000000000000000000000112040345600000000000000000000000000000000001120403456000000000000000000000000000000000011204034560000000000000000000000000000000000))
 (.node 1 (.leaf 11204034560000000000000000000000000000000000112040345600000000000000000000000000000000001120403456000000000000000000000000000000000011204034560000000000000000000000000000000000112040345600000000000000000000000000000000001120403456000000000000000000000000000000000011204034560000000000000000000000000000000000112040345600000000000000000000000000000000001120403456000000000000000000000000000000000011204034560000000000000000000000000000000000112040345600000000000000000000000000000000001120403456000000000000000000000000000000000011204034560000000000000000000000000000000000112040345600000000000000000000000000000000001120403456000000000000000000000000000000000011204034560000000000000000000000000000000000)
 (.leaf 11204034560000000000000000000000000000000000112040345600000000000000000000000000000000001120403456000000000000000000000000000000000011204034560000000000000000000000000000000000112040345600000000000000000000000000000000001120403456000000000000000000000000000000000011204034560000000000000000000000000000000000112040345600000000000000000000000000000000001120403456000000000000000000000000000000000011204034560000000000000000000000000000000000111856844800000000000000000000000000000000001077936128000000000000000000000000000000000011204034560000000000103142297400000000000000112040345600000000000000000000000000000000001120403456000000000000000000000000000000000011204034560000000000000000000000000000000000)))))
 (.node 8 (.node 4 (.node 2 (.node 1 (.leaf 11204034560000000000000000000000000000000000112040345600000000000000000000000000000000001120403456000000000000000000000000000000000011204034560000000000000000000000000000000000112040345600000000000000000000000000000000001086324736000000000000000000000000000000000011141120000000000000000000000000000000000000111411200000000000001016887194000000000000001118961664000000000000000000000000000000000011083448320000000000000000000000000000000000110048051200000000001016887194000000000000001079286820000000000000000000000000000000000011204034560000000000000000000000000000000000112040345600000000000000000000000000000000001120403456000000000000000000000000000000000011204034560000000000000000000000000000000000)
 (.leaf 11204034560000000000000000000000000000000000112040345600000000000000000000000000000000001120403456000000000000000000000000000000000011204034560000000000000000000000000000000000112040345600000000000000000000000000000000001120403456000000000000000000000000000000000011204034560000000000000000000000000000000000112040345600000000000000000000000000000000001120403456110869436110340536421040697749000011204034560000000000000000000000000000000000112040345600000000000000000000000000000000001120403456000000000000000000000000000000000011204034560000000000000000000000000000000000112040345600000000000000000000105060113200001120403456000000000000000000000000000000000011204034560000000000000000000000000000000000))
 (.node 1 (.leaf 11204034560000000000108678275410200319290000112040345600000000001097888956000000000000001120403456000000000010934238051053587218000011204034560000000000000000000010639165172635112040345600000000000000000000105173221300001120403456100885077400000000001042183428000011204034561085169161103604006400000000000000112040345600000000000000000000106461453100001120403456000000000000000000000974739168000011204034560000000000102790647010421709800000112040345600000000000000000000000000000000001120403456000000000000000000000000000000000011204034560000000000000000000000000000000000112040345610587245880000000000000000000000001120403456106193128510378654251075742622000011204034560000000000000000000000000000002636)
 (.leaf 11204034561049621254000000000010502312470000112040345600000000000000000000106199502500001120403456000000000000000000001015140969000011204034560000000000000000000010369331862637112040345600000000000000000000104065793526381120403456000000000000000000000000000000263911204034560000000000000000000000000000002640112040345600000000000000000000000000000026411120403456000000000000000000001023511084264211204034560000000000000000000000000000002643109943193600000000000000000000000000000000001099431936000000000000000000000000000000000011204034560000000000000000000000000000000000110519910400000000000000000000000000000000001113587712000000000000000000001051135175264411204034560000000000000000000000000000002645)))
 (.node 2 (.node 1 (.leaf 11204034560000000000000000000000000000000000112040345600000000000000000000000000000000001120403456000000000000000000001034184395000011204034560000000000000000000000000000000000112040345600000000000000000000103810294200001120403456000000000000000000000000000000000011204034560000000000000000000000000000000000112040345600000000000000000000000000000000001120403456000000000000000000001029989371000011204034560000000000000000000000000000000000112040345600000000000000000000000000000026461115684864000000000010995501111078620382000010725909070000000000000000000000000000000000111634022400000000001108422322103702395400001120403456000000000011145191621048719365000011204034560000000000111589450100000000000000)
 (.leaf 11175198720000000000110838997310159593492647110048051200000000000000000000106238436300001120403456000000000000000000000000000000000011204034560000000000000000000000000000000000112040345600000000000000000000000000000000001120403456000000000000000000000000000000000011204034560000000000000000000000000000000000112040345600000000000000000000000000000000001120403456000000000000000000000000000000000011204034560000000000000000000000000000000000112040345600000000000000000000000000000000001120403456000000000000000000000000000000000011204034560000000000000000000000000000000000112040345600000000000000000000102713955500001120403456000000000000000000000000000000000011204034560000000000000000000000000000000000))
 (.node 1 (.leaf 11204034560000000000000000000000000000000000112040345600000000000000000000000000000000001120403456000000000000000000000000000000000011204034560000000000000000000000000000000000112040345600000000000000000000000000000000001120403456000000000000000000000000000000000011204034560000000000000000000000000000000000112040345600000000000000000000000000000000001120403456000000000000000000000000000000000011204034560000000000000000000000000000000000112040345600000000000996070025000000000000001120403456000000000010573857160000000000000011204034560000000000000000000000000000000000112040345600000000000000000000000000000000001120403456000000000000000000000000000000000011204034560000000000000000000000000000000000)
 (.leaf 11204034560000000000000000000000000000000000112040345600000000000000000000000000000000001120403456000000000000000000000000000000000011204034560000000000000000000000000000000000112040345600000000000000000000000000000000001120403456000000000000000000000000000000000011204034560000000000000000000000000000000000112040345600000000000000000000000000000000001120403456000000000000000000000000000000000011204034560000000000000000000000000000000000112040345600000000000000000000000000000000001096810496000000000000000000000000000000000011204034560000000000000000000000000000000000112040345600000000000000000000000000000000001120403456000000000000000000000000000000000011204034560000000000000000000000000000000000))))
 (.node 4 (.node 2 (.node 1 (.leaf 11204034560000000000000000000000000000000000112040345600000000000000000000000000000000001120403456000000000000000000000000000000000011204034560000000000000000000000000000000000112040345600000000000000000000000000000000001120403456000000000000000000000000000000000011204034560000000000000000000000000000000000112040345600000000000000000000000000000000001120403456000000000000000000000000000000000010936647680000000000000000000000000000000000109681049600000000000000000000000000000000001106771968000000000000000000000000000000000011171266560000000000000000000000000000000000112040345600000000000000000000000000000000001120403456000000000000000000000000000000000011204034560000000000000000000000000000000000)
 (.leaf 11204034560000000000000000000000000000000000112040345600000000000000000000000000000000001120403456000000000000000000000000000000264811204034560000000000000000000000000000000000112040345600000000000000000000000000000000001120403456000000000000000000000000000000000011204034560000000000000000000000000000000000112040345600000000000000000000000000000000001120403456000000000000000000000000000000000011204034560000000000000000000000000000000000112040345600000000000000000000103901766700001120403456000000000010812454341040266206000011204034560000000000109776176410537961280000112040345610864543420000000000000000000026491120403456000000000000000000000000000000000011204034560000000000102086003910546441030000))
 (.node 1 (.leaf 11204034561035156240000000000000000000000000112040345600000000000000000000000000000000001120403456000000000000000000000000000000000011204034561053006628000000000000000000000000112040345600000000000000000000104379232326501120403456000000000000000000001049908397000011204034560000000000000000000000000000002651112040345600000000000000000000000000000000001120403456000000000000000000000000000000000011204034560000000000000000000000000000000000112040345600000000000000000000000000000000001120403456000000000000000000000000000000265211204034560000000000000000000000000000000000112040345600000000000000000000000000000026531120403456000000000000000000001010791757265411204034561033518784000000000010518364732655)
 (.leaf 11204034560000000000000000000000000000000000112040345600000000000000000000000000000000001120403456000000000000000000000000000000265611204034560000000000000000000000000000002657112040345600000000000000000000000000000026581052338593000000000000000000000000000000000011020533760000000000000000000000000000002659112040345600000000000000000000000000000000001112014848000000000000000000000000000000000010653178330000000000000000000000000000000000111961702400000000000000000000104037764126601120403456000000000000000000000000000000266111204034560000000000000000000000000000000000112040345600000000000000000000000000000000001120403456000000000000000000000000000000000011204034560000000000000000000000000000000000)))
 (.node 2 (.node 1 (.leaf 11204034560000000000000000000000000000000000112040345600000000000000000000000000000000001086324736000000000010853927620000000000000011204034560000000000111704547000000000000000109051904000000000000000000000000000000000001067909560000000000000000000000000000000000011204034560000000000106396406300000000000000112040345600000000000000000000000000000000001120403456000000000000000000000000000000000011204034560000000000000000000000000000000000112040345600000000000000000000000000000000001120403456000000000000000000000000000000000011204034560000000000000000000000000000000000112040345600000000000000000000000000000000001120403456000000000000000000000000000000000011204034560000000000000000000000000000000000)
 (.leaf 11204034560000000000000000000000000000000000112040345600000000000000000000000000000000001120403456000000000000000000000000000000000011204034560000000000000000000000000000000000112040345600000000001024363122000000000000001120403456000000000000000000000000000000000011204034560000000000000000000000000000000000112040345600000000000000000000000000000000001120403456000000000000000000000000000000000011204034560000000000105161603200000000000000112040345600000000000000000000000000000000001120403456000000000000000000000000000000000011204034560000000000000000000000000000000000112040345600000000001051233511000000000000001120403456000000000010578286350000000000000011204034560000000000000000000000000000000000))
 (.node 1 (.leaf 11204034560000000000000000000000000000000000112040345600000000000000000000000000000000001120403456000000000000000000000000000000000011204034560000000000000000000000000000000000112040345600000000000000000000000000000000001120403456000000000000000000000000000000000011204034560000000000000000000000000000000000112040345600000000000000000000000000000000001120403456000000000000000000000000000000000011204034561047879746000000000000000000000000112040345600000000000000000000000000000000001118961664000000000000000000000000000000000011204034560000000000103002711000000000000000112040345600000000000000000000000000000000001120403456000000000000000000000000000000000011204034560000000000000000000000000000000000)
 (.leaf 11204034560000000000000000000000000000000000112040345600000000000000000000000000000000001102053376000000000000000000000000000000000011200102400000000000000000000000000000000000109051904000000000000000000000000000000000001116078080000000000000000000000000000000000011036262400000000000000000000000000000000000111411200000000000000000000000000000000000001120403456000000000000000000000000000000000011204034560000000000000000000000000000000000112040345600000000000000000000000000000000001120403456000000000000000000000000000000000011204034560000000000000000000000000000000000112040345600000000000000000000102111700600001120403456000000000000000000001035308836000011204034560000000000000000000010163428320000)))))))
 (.node 32 (.node 16 (.node 8 (.node 4 (.node 2 (.node 1 (.leaf 11204034560000000000000000000000000000000000112040345600000000001093545859105382631800001120403456000000000010976244011058691924000011204034561053938032000000000010446912062662112040345600000000001043126760106457211300001120403456000000000010500792391057945809000011204034561083903700104295227710616549050000112040345600000000000000000000000000000000001120403456000000000000000000001056904761000011204034560000000000000000000000000000002663112040345600000000000000000000000000000000001120403456000000000000000000001024193495000011204034560000000000000000000000000000000000112040345600000000000000000000000000000000001120403456000000000000000000000000000000000011204034560000000000000000000010519772810000)
 (.leaf 11204034561092752124104927728810540353600000112040345610304190261075376764000000000000001120403456107414243510758150680000000000266411204034560000000000000000000010496264642665112040345600000000000000000000104943678000001120403456101639810500000000001041451360266611204034560000000000000000000010511989620000112040345600000000000000000000105703868200001120403456000000000000000000000000000000000011204034560000000000000000000000000000002667112040345600000000000000000000101775734600001120403456000000000000000000000000000000000011204034560000000000000000000000000000002668112040345600000000000000000000000000000026691120403456000000000000000000000000000000267011204034560000000000000000000000000000000000))
 (.node 1 (.leaf 11204034560000000000000000000000000000002671112040345600000000000000000000000000000026721120403456000000000000000000000000000000267311204034560000000000000000000000000000002674110205337600000000001064378460000000000000001029900865000000000000000000000000000000000010689933690000000000000000000000000000000000112040345600000000000000000000000000000000001099431936000000000000000000000000000000000010578270410000000000000000000000000000000000112040345600000000000000000000000000000000001120403456000000000000000000000000000000000011204034560000000000000000000000000000000000112040345600000000000000000000000000000000001120403456000000000000000000001025148529000011204034560000000000000000000000000000000000)
 (.leaf 11204034560000000000000000000000000000002675112040345600000000000000000000102140256000001120403456000000000000000000000000000000000010994319360000000000000000000010701912792676110048051200000000001096795397105673637800001114898432000000000011107649191076222958000010968104960000000000109470956910728405910000109681049600000000000000000000000000000000001086324736000000000000000000001059547922000010826781450000000000000000000010265456160000107793612800000000000000000000101907856100001115684864000000000000000000000000000000000011204034560000000000000000000000000000000000112040345600000000000000000000000000000000001120403456000000000000000000000000000000000011204034560000000000000000000000000000000000)))
 (.node 2 (.node 1 (.leaf 11204034560000000000000000000000000000000000112040345600000000000000000000000000000000001120403456000000000000000000000000000000000011204034560000000000000000000000000000000000112040345600000000000000000000000000000000001120403456000000000000000000000000000000000011204034560000000000000000000000000000000000112040345600000000000000000000000000000000001120403456000000000000000000000000000000000011204034560000000000000000000000000000000000112040345600000000001073488488000000000000001120403456000000000000000000000000000000000011204034560000000000000000000000000000000000112040345600000000000000000000000000000000001120403456000000000010641402230000000000000011204034560000000000000000000000000000000000)
 (.leaf 11204034560000000000000000000000000000000000112040345600000000000000000000000000000000001120403456000000000000000000000000000000000011204034560000000000000000000000000000000000112040345600000000000000000000000000000000001120403456000000000000000000000000000000000011204034560000000000000000000000000000000000112040345600000000000000000000000000000000001120403456000000000000000000000000000000000011204034560000000000000000000000000000000000112040345600000000000000000000000000000000001120403456000000000000000000000000000000000011204034560000000000000000000000000000000000112040345600000000000000000000000000000000001120403456000000000000000000000000000000000011204034560000000000000000000000000000000000))
 (.node 1 (.leaf 11204034560000000000000000000000000000000000112040345600000000000000000000000000000000001120403456000000000000000000000000000000000011204034561020992646000000000000000000000000112040345600000000000000000000000000000000001120403456000000000000000000000000000000000011204034560000000000000000000000000000000000112040345600000000000000000000000000000000001120403456000000000000000000000000000000000011204034560000000000000000000000000000000000112040345600000000000000000000000000000000001120403456000000000000000000000000000000000011204034560000000000000000000000000000000000112040345600000000000000000000000000000000001120403456000000000000000000000000000000000011204034560000000000101688719400000000000000)
 (.leaf 11204034560000000000000000000000000000000000112040345600000000000000000000000000000000001120403456000000000000000000000000000000000011204034560000000000000000000000000000000000111961702400000000000000000000000000000000001113587712107743564300000000000000000000000011204034561026700121000000000000000000000000110991769600000000000000000000000000000000001116078080000000000000000000000000000000000011104419840000000000000000000010324285620000111634022400000000000000000000000000000000001112014848000000000000000000000000000000000011051991040000000000000000000000000000000000110991769600000000000000000000000000000000001105199104097090420100000000001040317609000010779361280000000000000000000000000000000000))))
 (.node 4 (.node 2 (.node 1 (.leaf 11163402240000000000105308571600000000000000112040345600000000000000000000000000000000001120403456000000000000000000000000000000000011204034560000000000000000000000000000000000112040345600000000000000000000105261623700001120403456000000000000000000000000000000000011204034560000000000107759471210356035892677112040345610601360390000000000103477134200001120403456000000000000000000001065705397267811204034560000000000000000000010034280850000112040345610649123111068706981104011655300001120403456106332055600000000001027243686000011204034560000000000103935524210465079920000112040345600000000001008337525106040967700001120403456000000000010584795911067140582000011204034560000000000105764240810730431100000)
 (.leaf 11204034560000000000104325426710521597850000112040345600000000001030161328104109758000001120403456000000000000000000000000000000267911204034560000000000000000000000000000000000112040345600000000000000000000000000000000001120403456000000000000000000000000000000000011204034561037109108000000000000000000000000112040345610745698971042475804104568898026801120403456000000000000000000000000000000000011204034560000000000000000000000000000002681112040345600000000000000000000000000000026821120403456000000000000000000001044435780268311204034560000000000000000000010471325220000112040345600000000000000000000104912336126841120403456000000000000000000001037867623000011204034560000000000000000000000000000000000))
 (.node 1 (.leaf 11204034560000000000000000000000000000000000112040345600000000000000000000000000000000001120403456000000000000000000000000000000000011204034560000000000000000000010246823760000112040345600000000000000000000104282604800001120403456000000000000000000001020908814268511204034560000000000000000000010489077370000112040345600000000000000000000104200429400001120403456000000000000000000000000000000268611204034560000000000000000000010211428482687112040345600000000000000000000000000000000001120403456000000000000000000000000000000268811204034560000000000000000000000000000000000111935488000000000000000000000102459927926891103626240000000000000000000001043134041000010936647680000000000000000000010397864640000)
 (.leaf 11075584000000000000000000000010360550010000109943193600000000000000000000105763581400001120403456000000000000000000000000000000000011148984320000000000000000000000000000000000106808790200000000000000000000000000000000001077936128000000000000000000001055372907000011204034560000000000000000000000000000000000112040345600000000000000000000105443391800001120403456000000000000000000001019730006000011204034560000000000000000000000000000000000112040345600000000000000000000000000000000001120403456000000000000000000000000000000269010814144230000000000000000000010385693400000108078531900000000000000000000000000000000001114898432000000000000000000001086939582269111051991040000000000000000000010800441830000)))
 (.node 2 (.node 1 (.leaf 10936647680000000000000000000000000000000000111751987200000000000000000000000000000000001120403456000000000000000000000000000000000011204034560000000000000000000000000000000000112040345600000000000000000000000000000000001120403456000000000010579594970000000000000011204034560000000000000000000000000000000000112040345600000000000000000000000000000000001120403456000000000000000000000000000000000011204034560000000000000000000000000000000000112040345600000000000000000000000000000000001120403456000000000000000000000000000000000011204034560000000000000000000000000000000000112040345600000000000000000000000000000000001120403456000000000000000000001037710829000011204034560000000000000000000000000000000000)
 (.leaf 11204034560000000000000000000000000000000000112040345600000000000000000000000000000000001120403456000000000000000000000000000000000011204034560000000000000000000000000000000000112040345600000000000000000000000000000000001120403456000000000010823357430000000000000011204034560000000000000000000000000000000000112040345600000000000000000000000000000000001120403456000000000000000000000000000000000011204034560000000000000000000000000000000000112040345600000000000000000000000000000000001120403456000000000000000000000000000000000011204034560000000000000000000000000000000000112040345600000000000000000000000000000000001120403456000000000000000000000000000000000011204034560000000000000000000000000000000000))
 (.node 1 (.leaf 11204034560000000000000000000000000000000000112040345600000000000000000000000000000000001120403456000000000000000000000000000000000011204034560000000000000000000000000000000000112040345600000000000000000000000000000000001120403456000000000000000000000000000000000011204034560000000000000000000000000000000000112040345600000000000000000000000000000000001120403456000000000000000000000000000000000011204034560000000000000000000000000000000000112040345600000000000000000000000000000000001119617024000000000000000000000000000000000011112284160000000000000000000000000000000000112040345600000000000000000000000000000000001120403456000000000000000000000000000000000011204034560000000000103005395400000000000000)
 (.leaf 11204034560000000000102511474100000000000000112040345600000000000000000000000000000000001120403456000000000010335033490000000000000011204034560000000000000000000000000000000000112040345600000000001035892425000000000000001120403456000000000000000000000000000000000011204034560000000000000000000000000000000000112040345600000000000000000000000000000000001120403456000000000000000000000000000000000011204034560000000000000000000000000000000000112040345600000000000000000000000000000000001120403456000000000000000000000000000000000011204034560000000000000000000000000000000000112040345600000000000000000000000000000000001120010240109016836300000000000000000000000010863247361081139591000000000000000000000000)))))
 (.node 8 (.node 4 (.node 2 (.node 1 (.leaf 11204034560000000000000000000000000000000000112040345600000000000000000000000000000000001119354880000000000000000000000000000000000011175198720000000000000000000010531191160000112040345610684134140000000000106560750426921120403456000000000000000000000000000000000011204034560000000000000000000000000000000000112040345600000000000000000000104940713500001120403456000000000000000000000000000000000011204034560000000000000000000000000000000000112040345600000000001093426741106038826800001120403456000000000010869786281009697975269311204034561056044982000000000010625999562694112040345600000000000000000000106065761200001120403456106585058500000000001043101718269511204034560000000000000000000010349079440000)
 (.leaf 11204034561063359496000000000010587285522696112040345600000000000000000000000000000026971120403456000000000000000000000000000000269811204034560000000000000000000010326331860000112040345600000000000000000000000000000026991120403456000000000000000000000000000000270011204034560000000000103936866410432909630000112040345600000000001045965465105321323000001120403456000000000000000000000000000000000011204034560000000000000000000000000000000000112040345609960957950000000000101947382000001120403456110347019300000000000000000000000011204034560000000000000000000000000000002701112040345600000000000000000000000000000027021120403456000000000000000000001035023721000011204034561086095922105875977010620186412703))
 (.node 1 (.leaf 11204034560000000000000000000010599639310000112040345600000000000000000000000000000027041120403456000000000000000000001039264598000011204034560000000000000000000010346060072705112040345600000000000000000000101641074000001120403456000000000000000000000000000000000011204034560000000000000000000000000000002706112040345600000000000000000000000000000027071120403456000000000000000000001025658829270811204034560000000000000000000000000000002709112040345600000000000000000000000000000000001118175232000000000000000000001049703128271010400852520000000000000000000000000000000000100898177000000000000000000000000000000000001106771968000000000000000000000000000000271111204034560000000000000000000000000000002712)
 (.leaf 11163402240000000000000000000000000000000000108632473600000000000000000000000000000000001061633976000000000000000000000000000000000010936647680000000000000000000010271129390000111122841600000000000000000000104898991100001118175232000000000000000000000000000000271311112284160000000000000000000010708900412714109366476800000000000000000000000000000000001094145330000000000000000000000000000000271511204034560000000000000000000000000000000000112040345600000000000000000000103143364100001120403456000000000000000000000000000000000011204034560000000000000000000010343777112716112040345600000000000000000000000000000000001120403456000000000000000000000000000000000011204034560000000000000000000000000000000000)))
 (.node 2 (.node 1 (.leaf 11204034560000000000000000000010204383210000111358771200000000000000000000106896681527171099431936000000000000000000001067285674000011112284160000000000000000000010779924180000109943193600000000000000000000105269364000001117126656000000000000000000000000000000000011204034560000000000000000000000000000000000112040345600000000000000000000000000000000001120403456000000000000000000000000000000000011204034560000000000000000000000000000000000112040345600000000000000000000000000000000001120403456100760952800000000000000000000000011204034560000000000000000000000000000000000112040345600000000000000000000000000000000001120403456000000000000000000000000000000000011204034560000000000000000000000000000000000)
 (.leaf 11204034560000000000000000000000000000000000112040345600000000000000000000000000000000001120403456000000000000000000000000000000000011204034560000000000000000000000000000000000112040345600000000000000000000000000000000001120403456000000000000000000000000000000000011204034560000000000000000000000000000000000112040345600000000000000000000000000000000001120403456000000000000000000000000000000000011204034560000000000000000000000000000000000112040345600000000000000000000000000000000001120403456000000000000000000000000000000000011204034560000000000000000000000000000000000112040345600000000000000000000000000000000001120403456000000000000000000000000000000000011204034560000000000000000000000000000000000))
 (.node 1 (.leaf 11204034560000000000000000000000000000000000112040345600000000000000000000000000000000001120403456000000000000000000000000000000000011204034560000000000000000000000000000000000112040345600000000000000000000000000000000001120403456000000000000000000000000000000000011204034560000000000000000000000000000000000112040345600000000000000000000000000000000001120403456000000000000000000000000000000000011204034560000000000000000000000000000000000112040345600000000000000000000000000000000001120403456000000000000000000000000000000000011163402240000000000000000000000000000000000107793612800000000000000000000000000000000001112014848000000000010300271100000000000000011204034560000000000000000000000000000000000)
 (.leaf 11204034560000000000000000000000000000000000112040345600000000000000000000000000000000001120403456000000000000000000000000000000000011204034560000000000000000000000000000000000112040345600000000000000000000000000000000001120403456000000000000000000000000000000000011204034560000000000000000000000000000000000111856844810882359520000000000000000000000001120403456000000000000000000000000000000000011204034560000000000000000000000000000000000112040345600000000000000000000000000000000001109131264104191625100000000000000000000000011204034561105613292105152207910664403980000112040345600000000000000000000104688351600001120403456000000000000000000000000000000000011204034561050223690000000000010571699192718))))
 (.node 4 (.node 2 (.node 1 (.leaf 11204034560000000000000000000010488224610000112040345600000000000000000000000000000027191120403456097920690900000000001053968110272011204034561026119763000000000010427294702721112040345610418549800000000000106098163300001120403456105191211600000000000000000000000011204034561057981072000000000010191121572722112040345600000000000000000000000000000000001120403456000000000000000000001019314820272311204034560000000000000000000000000000000000112040345600000000000000000000000000000027241120403456000000000000000000000000000000000011204034560000000000105109258210587610420000112040345600000000001038147283106810579300001120403456000000000000000000000000000000000011204034560000000000000000000000000000000000)
 (.leaf 11204034560987475258000000000010345506142725112040345600000000000000000000000000000000001120403456000000000000000000000000000000272611204034560000000000000000000010260832130000112040345610610746061075986616107682750027271120403456000000000000000000000000000000272811204034560000000000107152974800000000002729112040345610444596760000000000000000000027301120403456000000000000000000001047215118273111204034560000000000000000000010401490712732112040345600000000001093401785102074057200001120403456000000000000000000001037459145000011204034560000000000000000000010176724672733112040345600000000000000000000000000000027341120403456000000000000000000000000000000000011204034560000000000000000000010402461362735))
 (.node 1 (.leaf 11204034560000000000000000000000000000002736100898177000000000000000000000000000000000001090519040000000000000000000000000000000000011204034560000000000000000000000000000000000110991769600000000000000000000000000000000001053752476000000000000000000000000000000000010968104960000000000000000000000000000000000109051904000000000000000000000000000000027371028095314000000000000000000000000000000000010089817700000000000000000000000000000000000101732818000000000000000000000000000000000001105199104000000000000000000000000000000000011185684480000000000000000000000000000000000111607808000000000000000000000000000000000001120403456000000000000000000000000000000000011204034560000000000000000000000000000000000)
 (.leaf 11204034560000000000000000000010327383622738112040345600000000000000000000000000000000001120403456000000000000000000000000000000000011204034560000000000000000000000000000000000112040345600000000000000000000000000000000001120403456000000000000000000000000000000000011204034560000000000000000000000000000000000112040345600000000000000000000000000000000001120403456000000000000000000000000000000273911067719680000000000000000000010711760530000107501408200000000000000000000000000000000001077936128000000000000000000001031975048000010779361280000000000000000000010201019830000112040345600000000000000000000000000000000001120403456000000000010494115050000000000000011204034560000000000000000000000000000000000)))
 (.node 2 (.node 1 (.leaf 11204034560000000000000000000000000000000000112040345600000000000000000000000000000000001120403456000000000000000000000000000000000011204034560000000000000000000000000000000000112040345600000000000000000000000000000000001120403456000000000000000000000000000000000011204034560000000000000000000000000000000000112040345600000000000000000000000000000000001120403456000000000000000000000000000000000011204034560000000000000000000000000000000000112040345600000000000000000000000000000000001120403456000000000000000000000000000000000011204034560000000000000000000000000000000000112040345600000000000000000000000000000000001120403456000000000000000000000000000000000011204034560000000000000000000000000000000000)
 (.leaf 11204034560000000000000000000000000000000000112040345600000000000000000000000000000000001120403456000000000000000000000000000000000011204034560000000000000000000000000000000000112040345600000000000000000000000000000000001120403456000000000000000000000000000000000011204034560000000000000000000000000000000000112040345600000000000000000000000000000000001120403456000000000000000000000000000000000011204034560000000000000000000000000000000000112040345600000000000000000000000000000000001120403456000000000000000000000000000000000011204034560000000000000000000000000000000000112040345600000000000000000000000000000000001120403456000000000000000000000000000000000011204034560000000000000000000000000000000000))
 (.node 1 (.leaf 11204034560000000000000000000000000000000000112040345600000000000000000000000000000000001120403456000000000000000000000000000000000011204034560000000000000000000000000000000000112040345600000000000000000000000000000000001120403456000000000000000000000000000000000011204034560000000000000000000000000000000000112040345600000000000000000000000000000027401120403456000000000000000000000000000000274111204034560000000000000000000000000000000000111961702400000000000000000000102171521200001120010240000000000000000000000000000000000011204034560000000000000000000000000000000000112040345600000000000000000000000000000000001120403456000000000000000000000000000000000011204034560000000000000000000000000000000000)
 (.leaf 11204034560000000000000000000000000000000000112040345600000000000000000000000000000000001120403456000000000000000000000000000000000011204034560000000000000000000000000000000000112040345600000000000000000000000000000000001120403456000000000000000000000000000000000011204034560000000000000000000000000000000000112040345600000000000000000000000000000000001120403456000000000000000000000000000000000011204034560000000000000000000000000000000000112040345600000000000000000000000000000000001120403456000000000000000000000000000000000011204034561083697906000000000000000000000000112040345600000000000000000000000000000000001120403456000000000000000000000000000000000011204034560000000000000000000000000000000000))))))
 (.node 16 (.node 8 (.node 4 (.node 2 (.node 1 (.leaf 11204034560000000000000000000000000000000000112040345600000000000000000000000000000000001090519040000000000000000000000000000000000011200102401109582419108271155310515801352742112040345611144351771075508045104536765500001120403456111096024710376372550000000000274311204034561119625889000000000010206681090000112040345611145564440000000000102527845500001120403456111673288800000000000000000000000011204034560000000000000000000010576683380000112040345600000000000000000000105404640927441120403456000000000000000000000000000000000011204034560000000000000000000000000000000000112040345600000000000000000000102391914600001120403456000000000000000000001043925741274511204034560000000000000000000010455295370000)
 (.leaf 11204034560979447428000000000000000000000000112040345600000000000000000000095926936400001120403456000000000000000000000000000000000011204034560000000000000000000000000000000000112040345600000000000000000000000000000027461120403456000000000010691104741076651245000011204034560000000000000000000010224232552747112040345600000000000000000000000000000000001120403456000000000000000000000000000000000011204034561049249572000000000000000000000000112040345600000000000000000000000000000000001120403456000000000000000000000000000000000011204034561065097665104510647210703158420000112040345600000000000000000000105732554100001120403456000000000000000000001049211650000011204034560000000000000000000000000000000000))
 (.node 1 (.leaf 11204034560000000000000000000000000000000000112040345600000000000000000000000000000000001120403456000000000000000000001033788548274811204034561074789196000000000000000000002749112040345600000000000000000000101511504400001120403456105836959900000000001041261836000011204034560000000000000000000010585406602750112040345600000000000000000000102374667427511120403456104573951000000000000000000000000011204034561066741849000000000010169892012752107793612800000000001067841277000000000027531080285777000000000000000000000000000000000011204034560000000000000000000010506855550000112040345600000000000000000000103040444400001103626240000000000000000000000000000000000011196170240000000000000000000000000000000000)
 (.leaf 10936647680000000000000000000000000000000000107793612800000000000000000000000000000000001120403456000000000000000000000000000000000011204034560000000000000000000000000000002754112040345600000000000000000000000000000027551120403456000000000000000000001023009664275611204034560000000000000000000000000000000000112040345600000000000000000000000000000000001120403456000000000000000000000000000000000011204034560000000000000000000000000000002757110755840000000000000000000000000000000000001106771968000000000000000000001009049433000010786273070000000000000000000010235413870000108632473600000000000000000000107272932300001077371324000000000000000000001052389261000011204034560000000000000000000000000000000000)))
 (.node 2 (.node 1 (.leaf 11204034560000000000104398575400000000000000112040345610743981780000000000000000000000001120403456000000000000000000000000000000000011204034560000000000106028817400000000000000112040345600000000000000000000000000000000001120403456103825626700000000000000000000000011204034560000000000000000000000000000000000112040345600000000000000000000000000000000001120403456000000000000000000000000000000000011204034560000000000000000000000000000000000112040345600000000000000000000000000000000001120403456000000000000000000000000000000000011204034560000000000000000000000000000000000112040345600000000000000000000000000000000001120403456000000000000000000000000000000000011204034560000000000000000000000000000000000)
 (.leaf 11204034560000000000000000000000000000000000112040345600000000000000000000000000000000001120403456000000000000000000000000000000000011204034560000000000000000000000000000000000112040345600000000000000000000000000000000001120403456000000000000000000000000000000000011204034560000000000000000000000000000000000112040345600000000000000000000000000000000001120403456000000000000000000000000000000000011204034560000000000000000000000000000000000112040345600000000000000000000000000000000001120403456000000000010510892270000000000000011204034560000000000000000000000000000000000112040345600000000000000000000000000000000001120403456000000000000000000000000000000000011204034560000000000000000000000000000000000))
 (.node 1 (.leaf 11204034560000000000000000000000000000000000112040345600000000000000000000000000000000001120403456000000000000000000000000000000000011204034560000000000000000000000000000000000112040345600000000000000000000000000000000001120403456000000000000000000000000000000000011204034560000000000000000000000000000000000112040345600000000000000000000000000000000001120403456000000000000000000000000000000000011204034560000000000000000000000000000000000112040345600000000000000000000000000000000001120403456000000000000000000000000000000000011204034560000000000000000000000000000002758112040345600000000000000000000000000000027591120403456000000000000000000000000000000000011204034560000000000000000000000000000000000)
 (.leaf 11204034560000000000000000000000000000000000112040345600000000000000000000000000000000001120403456000000000000000000000000000000000011204034560000000000000000000000000000000000112040345600000000000000000000000000000000001120403456000000000000000000000000000000000011204034560000000000000000000000000000000000112040345600000000000000000000000000000000001120403456000000000000000000000000000000000011204034560000000000000000000000000000000000112040345600000000000000000000000000000000001120403456000000000000000000000000000000000011204034560000000000000000000000000000000000112040345600000000000000000000000000000000001120403456000000000000000000000000000000000011204034560000000000000000000000000000000000))))
 (.node 4 (.node 2 (.node 1 (.leaf 11204034560000000000000000000000000000000000111817523200000000000000000000000000000027601077936128000000000000000000001056997251000011181752320000000000108329330310561095880000112040345600000000001095885023104145333800001120403456108446615610959252881046970727000011200102401096788579108661078810483717180000112040345611079325551095514141104427518800001120403456000000000010256784561037672281000011204034560000000000000000000000000000002761112040345600000000000000000000101278128100001120403456000000000000000000001062917551276211204034560000000000000000000010361944512763112040345600000000000000000000104468628600001120403456000000000000000000001032884190000011204034560000000000000000000000000000000000)
 (.leaf 11204034560000000000000000000000000000002764112040345600000000000000000000000000000000001120403456000000000000000000000000000000000011204034560000000000000000000010456505082765112040345600000000000000000000000000000027661120403456000000000000000000000000000000276711204034560000000000104991817710585483500000112040345600000000001050045684105890973400001120403456104138266800000000001026189469000011204034560000000000000000000000000000002768112040345600000000000000000000000000000027691120403456000000000000000000000000000000000011204034561068954387000000000000000000000000112040345600000000000000000000103061468600001120403456000000000000000000000000000000000011204034560000000000000000000000000000002770))
 (.node 1 (.leaf 11204034560000000000000000000000000000002771112040345600000000000000000000103329713000001120403456000000000000000000000000000000277211204034560000000000000000000000000000000000112040345600000000000000000000105532648800001120403456000000000000000000001038832709000011204034560000000000000000000010549646572773112040345600000000000000000000105330085900001120403456000000000000000000001057161533277411204034560000000000000000000010584040802775112040345600000000000000000000102790849827761120403456105807073000000000001062871273277710779361280000000000000000000000000000000000105056698600000000000000000000000000000000001118175232000000000000000000001050782839277811204034560000000000000000000000000000002779)
 (.leaf 11179130880000000000000000000000000000000000107389302900000000000000000000000000000000001086324736000000000000000000000000000000000011204034560000000000000000000000000000000000112040345600000000000000000000000000000027801120403456000000000000000000001042885988000011204034560000000000000000000010564745210000112040345600000000000000000000104504695500001120403456000000000000000000000000000000000011075584000000000000000000000010784123070000109366476800000000000000000000102367493800001114112000000000000000000000000000000000000011196170240000000000000000000010661378150000111634022400000000000000000000106099015700001114898432000000000000000000001043533987000011175198720000000000000000000000000000000000)))
 (.node 2 (.node 1 (.leaf 11204034560000000000000000000000000000000000112040345600000000000000000000000000000000001119617024000000000000000000001068214959000011135877120000000000000000000000000000000000107793612800000000000000000000000000000000001086324736000000000000000000001025860250000010905190400000000000000000000010600674980000109051904000000000000000000000105167011900001120403456000000000000000000000000000000000011204034560000000000106282153400000000000000112040345600000000000000000000000000000000001120403456000000000010594694460000000000000011204034560000000000000000000000000000000000112040345600000000000000000000000000000000001120403456000000000000000000000000000000000011204034560000000000000000000000000000000000)
 (.leaf 11204034560000000000000000000000000000000000112040345600000000000000000000000000000000001120403456000000000000000000000000000000000011204034560000000000000000000000000000000000112040345600000000000000000000000000000000001120403456000000000000000000000000000000000011204034560000000000000000000000000000000000112040345600000000000000000000000000000000001120403456000000000000000000000000000000000011204034560000000000000000000000000000000000112040345600000000000000000000000000000000001120403456000000000000000000000000000000000011204034560000000000000000000000000000000000112040345600000000000000000000000000000000001120403456000000000000000000000000000000000011204034560000000000000000000000000000000000))
 (.node 1 (.leaf 11204034560000000000000000000000000000000000112040345600000000000000000000000000000000001120403456000000000000000000000000000000000011204034560000000000000000000000000000000000112040345600000000000000000000000000000000001120403456000000000000000000000000000000000011204034560000000000000000000000000000000000112040345600000000000000000000000000000000001120403456000000000000000000000000000000000011204034560000000000000000000000000000000000112040345600000000000000000000000000000000001120403456000000000000000000000000000000000011204034560000000000000000000000000000000000112040345600000000000000000000000000000000001120403456000000000000000000000000000000000011204034560000000000000000000000000000000000)
 (.leaf 11204034560000000000000000000000000000000000112040345600000000000000000000000000000000001120403456000000000000000000000000000000000011204034560000000000000000000000000000000000112040345600000000000000000000000000000000001120403456000000000000000000000000000000278111204034560000000000000000000000000000000000112040345600000000000000000000000000000000001120403456000000000000000000000000000000000011204034560000000000000000000000000000000000110048051200000000000000000000000000000000001120403456000000000000000000000000000000000011204034560000000000000000000000000000000000112040345600000000000000000000000000000000001120403456000000000000000000000000000000000011204034560000000000000000000000000000000000)))))
 (.node 8 (.node 4 (.node 2 (.node 1 (.leaf 11204034560000000000000000000000000000000000112040345600000000000000000000000000000000001120403456000000000000000000000000000000000011204034560000000000000000000000000000000000112040345600000000000000000000000000000000001120403456000000000000000000000000000000000011204034560000000000000000000000000000000000112040345600000000001016887194000000000000001120403456000000000000000000000000000000000011204034560000000000000000000000000000000000112040345600000000000000000000000000000000001120403456000000000000000000000000000000000011204034560000000000000000000000000000000000112040345600000000000000000000000000000000001120403456000000000000000000000000000000000011204034560000000000000000000000000000000000)
 (.leaf 11204034560000000000000000000000000000000000111568486400000000000000000000000000000000001086324736000000000000000000000000000000000011204034561008994655107020434810505563100000112040345610601876451103214254104991285700001120403456111485703611083572051033792840000011204034560000000000000000000010298555320000112040345600000000000000000000000000000027821120403456000000000000000000001030666665278311204034560000000000000000000010557299170000112040345600000000000000000000102830440300001120403456000000000000000000000000000000000011204034560000000000000000000000000000000000112040345600000000000000000000000000000000001120403456000000000000000000000000000000278411204034560000000000000000000000000000000000))
 (.node 1 (.leaf 11204034561067170381000000000010300550390000112040345600000000000000000000000000000000001119354880000000000000000000000000000000000011204034560000000000000000000000000000000000112040345610495937730000000000104604476300001120403456000000000000000000000000000000000011204034560000000000000000000010209931260000112040345600000000000000000000000000000000001120403456000000000000000000000000000000000011204034560000000000000000000000000000002785112040345600000000000000000000000000000027861120403456000000000000000000000000000000278711204034560000000000000000000000000000000000112040345600000000000000000000000000000000001120403456000000000000000000001039752766000011204034560000000000000000000000000000000000)
 (.leaf 11204034560000000000000000000000000000000000112040345600000000000000000000105838397900001120403456108079903810168871941065650280000011196170240000000000102417521710531292410000111358771200000000000000000000107375594100001105199104000000000010658556941073867478000010423625240000000000000000000000000000000000112001024000000000000000000000000000000000001102053376000000000000000000000000000000000011004805120000000000000000000010006216430000109681049600000000000000000000100665709700001120403456000000000000000000000000000000000011204034560000000000000000000010577376662788112040345600000000000000000000102183671100001120403456000000000000000000001050125832278911204034560000000000000000000000000000000000)))
 (.node 2 (.node 1 (.leaf 11204034560000000000000000000010449595030000112040345600000000000000000000105802530500001117519872000000000000000000001060409827000011148984320000000000000000000010251290640000110755840000000000000000000000105127345600001077936128000000000000000000001027157851000011112284160000000000000000000010369507220000111634022400000000000000000000105749307600001118175232000000000000000000001062113265000011196170240000000000000000000010807585800000112040345600000000000000000000106126274000001118961664000000000000000000001058052101000011171266560000000000000000000010787603690000110205337600000000000000000000105738179600001008981770000000000000000000000000000000000010779361280000000000000000000010365235840000)
 (.leaf 10779361280000000000000000000010417726910000108632473600000000000000000000103843013400001077936128000000000000000000001045083682000011204034560000000000000000000000000000000000112040345600000000001050944943000000000000001120403456000000000010604878230000000000000011204034560000000000000000000000000000000000112040345600000000001058251420000000000000001120403456000000000010487639050000000000000011204034560000000000000000000000000000000000112040345600000000000000000000000000000000001120403456000000000000000000000000000000000011204034560000000000000000000000000000000000112040345600000000000000000000000000000000001120403456000000000000000000000000000000000011204034560000000000000000000000000000000000))
 (.node 1 (.leaf 11204034560000000000000000000000000000000000112040345600000000000000000000000000000000001120403456000000000000000000000000000000000011204034560000000000000000000000000000000000112040345610422621300000000000000000000000001120403456000000000000000000000000000000000011204034560000000000000000000000000000000000112040345600000000000000000000000000000000001120403456000000000000000000000000000000000011204034560000000000000000000000000000000000112040345600000000000000000000000000000000001120403456000000000000000000000000000000000011204034560000000000000000000000000000000000112040345600000000000000000000000000000000001120403456000000000000000000000000000000000011204034560000000000000000000000000000000000)
 (.leaf 11204034560000000000000000000000000000000000112040345600000000000000000000000000000000001120403456000000000000000000000000000000000011204034560000000000000000000000000000000000112040345600000000000000000000000000000000001120403456000000000000000000000000000000000011204034560000000000000000000000000000000000112040345600000000000000000000000000000000001119354880000000000000000000000000000000000011051991040000000000000000000000000000000000112040345600000000000000000000000000000000001120403456000000000000000000000000000000000011204034560000000000000000000000000000000000112040345600000000000000000000000000000000001120403456000000000000000000000000000000000011204034560000000000000000000000000000000000))))
 (.node 4 (.node 2 (.node 1 (.leaf 11204034560000000000000000000000000000000000112040345600000000000000000000000000000000001120403456000000000000000000000000000000000011204034560000000000000000000000000000000000112040345600000000000000000000000000000000001120403456000000000000000000000000000000000011204034560000000000000000000000000000000000112040345600000000000000000000000000000000001113587712000000000000000000000000000000000011148984320000000000000000000000000000000000111791308800000000000000000000105779025800001120403456000000000010772377761049434273000011204034560000000000109750790410618302880000112040345600000000001097619053104904028100001120403456105212035510968360811052266265279011204034560000000000000000000000000000002791)
 (.leaf 11204034561025232316000000000000000000000000112040345600000000000000000000104866623827921120403456000000000000000000000000000000279311204034560000000000000000000000000000000000112040345600000000000000000000000000000027941120403456000000000000000000000000000000279511204034560000000000000000000000000000002796112040345600000000000000000000000000000027971120403456105102131300000000001038612898000011204034560000000000000000000000000000000000112040345600000000000000000000000000000000001120403456000000000000000000001075247178000011104419840000000000000000000000000000000000109681049600000000000000000000000000000000001120403456000000000000000000000000000000279811204034560000000000000000000000000000000000))
 (.node 1 (.leaf 11204034560000000000000000000000000000000000112040345600000000000000000000000000000000001120403456000000000000000000000000000000000011204034560000000000000000000000000000000000112040345600000000000000000000000000000000001120403456000000000000000000000000000000000011204034560000000000000000000000000000002799112040345600000000000000000000104298649428001120403456000000000000000000000000000000000011204034560000000000000000000010462218952801112040345600000000000000000000105314766628021120403456000000000000000000001043121095000011204034560000000000000000000010247537152803112040345600000000000000000000104914311200001120403456000000000000000000001042497843280411204034560000000000000000000010596400972805)
 (.leaf 11204034560000000000000000000010513100420000112040345600000000000000000000104526914628061115684864107051061600000000001047835236000010936647680000000000104426761100000000000000110048051200000000001040697419000000000000001068125735000000000000000000000000000000000010779361280000000000000000000010370236600000111280128000000000000000000000103317242700001090519040000000000000000000000000000000000010863247360000000000000000000010256210300000109943193600000000000000000000000000000000001086324736000000000000000000000000000000000010779361280000000000000000000000000000000000112040345600000000000000000000104866148328071120403456000000000000000000001038722589000011204034560000000000000000000010434575680000)))
 (.node 2 (.node 1 (.leaf 11204034560000000000000000000010412829612808111817523200000000000000000000101590017828091096810496000000000000000000000000000000000011004805120000000000000000000010017055840000109366476800000000000000000000104050716900001114898432000000000000000000001074805391000010615366170000000000000000000000000000000000100898177000000000000000000000000000000000001117913088000000000000000000000000000000281011185684480000000000000000000010291755640000112040345600000000000000000000107519867900001118175232000000000000000000001050901089000010860000540000000000000000000010459189860000109943193600000000000000000000103993222500001120403456000000000010495960550000000000000011204034560000000000107763875200000000000000)
 (.leaf 11204034560000000000106527939600000000000000112040345600000000000000000000000000000000001120403456000000000000000000000000000000000011204034560000000000000000000000000000000000112040345600000000000000000000000000000000001120403456000000000000000000000000000000000011204034560000000000000000000000000000000000112040345600000000000000000000000000000000001120403456000000000000000000000000000000000011204034560000000000000000000000000000000000112040345600000000000000000000000000000000001120403456000000000000000000000000000000000011204034560000000000000000000000000000000000112040345600000000000000000000000000000000001120403456000000000000000000000000000000000011204034560000000000000000000000000000000000))
 (.node 1 (.leaf 11204034560000000000000000000000000000000000112040345600000000000000000000000000000000001120403456000000000000000000000000000000000011204034560000000000000000000000000000000000112040345600000000000000000000000000000000001120403456000000000000000000000000000000000011204034560000000000000000000000000000000000112040345600000000000000000000000000000000001120403456000000000000000000000000000000000011204034561085655742000000000000000000000000112040345600000000000000000000000000000000001120403456000000000000000000000000000000000011204034560000000000000000000000000000000000112040345600000000000000000000000000000000001120403456000000000000000000000000000000000011204034560000000000000000000000000000000000)
 (.leaf 11204034560000000000000000000000000000000000112040345600000000000000000000000000000000001120403456000000000000000000000000000000000011204034560000000000000000000000000000000000112040345600000000000000000000000000000000001120403456000000000000000000000000000000000011204034560000000000000000000000000000000000112040345600000000000000000000000000000000001120403456000000000000000000000000000000000011204034560000000000000000000000000000000000112040345600000000000000000000000000000000001120403456000000000000000000000000000000000011204034560000000000000000000000000000000000112040345600000000000000000000000000000000001120403456000000000000000000000000000000000011204034560000000000000000000000000000000000)))))))))
 (.node 128 (.node 64 (.node 32 (.node 16 (.node 8 (.node 4 (.node 2 (.node 1 (.leaf 11204034560000000000000000000000000000000000112040345600000000000000000000000000000000001120403456000000000000000000000000000000000011204034560000000000000000000000000000000000112040345600000000000000000000000000000000001120403456000000000000000000000000000000000011204034560000000000000000000000000000000000112040345600000000000000000000000000000000001116733440000000000000000000000000000000000011189616640000000000000000000000000000000000112040345600000000000000000000000000000000001120403456000000000000000000000000000000000011204034560000000000000000000000000000000000112040345600000000000000000000000000000000001120403456000000000000000000000000000000000011204034560000000000000000000000000000000000)
 (.leaf 11204034560000000000000000000000000000000000112040345600000000000000000000000000000000001120403456000000000000000000000000000000000011204034560000000000000000000000000000000000112040345600000000000000000000000000000000001120403456000000000000000000000000000000000011204034560000000000000000000000000000000000112040345600000000000000000000000000000000001120403456000000000000000000000000000000000011204034560000000000000000000000000000000000111896166400000000000000000000000000000000001105199104000000000000000000001051301125000011204034560000000000109767441810589840992811112040345610513386711097798674105482894900001114112000106342086710740798851049904152000011204034560000000000000000000000000000000000))
 (.node 1 (.leaf 11204034560000000000000000000010182880890000112040345600000000000000000000000000000028121120403456000000000000000000001028199113000011204034560000000000000000000010238497500000112040345600000000000000000000103190056200001120403456000000000000000000000000000000000011204034560000000000000000000010381215102813112040345600000000000000000000103783002500001120403456000000000000000000001024035027281411204034560000000000000000000000000000000000112040345600000000000000000000000000000000001120403456000000000000000000000000000000000011141120000000000000000000000010177883770000110048051210679320840000000000000000000000001120403456000000000000000000000000000000000011204034560000000000000000000000000000000000)
 (.leaf 11204034560000000000000000000000000000000000112040345600000000000000000000000000000000001120403456000000000000000000000000000000000011204034560000000000000000000000000000000000112040345600000000000000000000000000000000001120403456000000000000000000000000000000000011204034560000000000000000000000000000000000112040345600000000000000000000000000000000001120403456000000000000000000000000000000281511204034560000000000000000000000000000002816112040345600000000000000000000000000000000001120403456000000000000000000000000000000000011204034560000000000000000000010402796170000111935488000000000000000000000105958902828171119617024000000000000000000001052431713281811020533760000000000000000000010612041372819)))
 (.node 2 (.node 1 (.leaf 10779361280000000000000000000010159471640000109943193600000000000000000000100288674200001100480512000000000000000000001037056314000010994319360000000000000000000000000000000000109681049600000000000000000000000000000000001008981770000000000000000000000000000000000010779361280000000000000000000000000000000000112040345600000000000000000000103350441400001120403456000000000000000000001042977015282011204034560000000000000000000000000000002821112040345600000000000000000000103064127400001120403456000000000000000000001044045140282210994319360000000000000000000000000000000000111935488000000000001042395274104310031000001120403456000000000000000000000000000000000011204034560000000000000000000010630635260000)
 (.leaf 11196170240000000000000000000010736761070000110755840000000000000000000000106244172000001067352137000000000000000000000000000000000011200102400000000000000000000010758832490000112040345600000000000000000000107026658428231120403456000000000000000000001044547313282411181752320000000000000000000010817625190000111122841600000000000000000000105052243100001102053376000000000000000000000000000000000010905190400000000000000000000010527922732825110991769600000000000000000000106759168228261093664768000000000000000000000000000000000011196170241091603883102166534600000000000000112040345600000000001073104290000000000000001120403456107209456110795333190000000000000011204034560000000000000000000000000000000000))
 (.node 1 (.leaf 11204034560000000000105280050300000000000000112040345600000000000000000000000000000000001120403456109210510200000000000000000000000011204034560000000000000000000000000000000000112040345600000000000000000000000000000000001120403456000000000000000000000000000000000011204034560000000000000000000000000000000000112040345600000000000000000000000000000000001120403456000000000000000000000000000000000011204034560000000000000000000000000000000000112040345610825658470000000000000000000000001120403456000000000000000000000000000000000011204034560000000000000000000000000000000000112040345600000000000000000000000000000000001120403456000000000000000000000000000000000011204034560000000000000000000000000000000000)
 (.leaf 11204034560000000000000000000000000000000000112040345600000000000000000000000000000000001120403456000000000000000000000000000000000011204034560000000000000000000000000000000000112040345610496718210000000000000000000000001120403456000000000000000000000000000000000011204034560000000000000000000000000000000000112040345600000000000000000000000000000000001120403456000000000000000000000000000000000011204034560000000000000000000000000000000000112040345600000000000000000000000000000000001120403456000000000000000000000000000000000011204034560000000000000000000000000000000000112040345600000000000000000000000000000000001120403456000000000000000000000000000000000011204034560000000000000000000000000000000000))))
 (.node 4 (.node 2 (.node 1 (.leaf 11204034560000000000000000000000000000000000112040345600000000000000000000000000000000001120403456000000000000000000000000000000000011204034560000000000000000000000000000000000112040345600000000000000000000000000000000001120403456000000000000000000000000000000000011204034560000000000000000000000000000000000112040345600000000000000000000000000000000001120403456000000000000000000000000000000000011204034561000144338000000000000000000000000112040345600000000000000000000000000000000001120403456000000000000000000000000000000000011204034560000000000000000000000000000000000112040345600000000000000000000000000000000001120403456000000000000000000000000000000000011204034560000000000000000000000000000000000)
 (.leaf 11204034560000000000000000000000000000000000112040345600000000000000000000000000000000001120403456000000000000000000000000000000000011204034560000000000000000000000000000000000112040345600000000000000000000000000000000001120403456000000000000000000000000000000000011204034560000000000000000000000000000000000112040345600000000000000000000000000000000001120403456000000000000000000000000000000000011204034560000000000000000000000000000000000112040345600000000000000000000000000000000001120403456000000000000000000000000000000000011204034560000000000000000000000000000000000112040345600000000000000000000000000000000001120403456000000000000000000000000000000000011204034561086710335000000000000000000000000))
 (.node 1 (.leaf 11193548800000000000000000000000000000000000110205337600000000000000000000105500242000001120403456000000000010978910541049568577000011204034561053149335109744782010479620730000111961702400000000001087230077104140070028271120403456000000000000000000000000000000000011204034560000000000000000000000000000000000112040345600000000000000000000000000000028281120403456000000000000000000001069570335282911204034560000000000000000000010488122340000112040345600000000000000000000105235882028301120403456000000000000000000000000000000000011204034560000000000000000000000000000000000112040345600000000000000000000000000000028311120403456000000000000000000000000000000283210716024770000000000000000000000000000000000)
 (.leaf 10706934040000000000000000000000000000000000111935488000000000000000000000102338041600001120403456000000000000000000000000000000000011204034560000000000000000000000000000000000112040345600000000000000000000105649411700001120403456000000000000000000000000000000000011204034560000000000000000000000000000000000112040345600000000000000000000000000000000001120403456000000000000000000000000000000000011204034561091797275000000000010361935790000111817523200000000000000000000000000000000001093664768000000000000000000000964165484000010528551300000000000000000000000000000000000108632473600000000000000000000000000000000001118175232000000000000000000001052731080000010804540110000000000000000000000000000000000)))
 (.node 2 (.node 1 (.leaf 10863247360000000000000000000000000000000000110519910400000000000000000000000000000000001113587712000000000000000000001025234130000010581591460000000000000000000000000000000000112040345600000000000000000000102771024400001120403456000000000000000000001058760016283311204034560000000000000000000010640768112834112040345600000000000000000000107019524400001120403456000000000000000000001039796657283511204034560000000000000000000010325736532836112040345600000000000000000000000000000000001120403456000000000000000000001041730636000011179130880000000000106472910410634171770000112040345600000000000000000000000000000000001120403456000000000000000000001039577659000011020533760000000000000000000010525441270000)
 (.leaf 11204034560000000000000000000010434933210000111201484800000000000000000000107236278900001103626240000000000000000000000000000000000010779361280000000000000000000010486325202837108850418100000000000000000000000000000028381086324736000000000000000000000000000000000011204034560000000000000000000000000000000000112040345600000000000000000000000000000000001120403456000000000010542332770000000000000011204034560000000000103829492200000000000000112040345600000000000000000000000000000000001120403456000000000000000000000000000000000011204034560000000000000000000000000000000000112040345600000000000000000000000000000000001120403456000000000000000000000000000000000011204034560000000000000000000000000000000000))
 (.node 1 (.leaf 11204034560000000000000000000000000000000000112040345600000000000000000000000000000000001120403456000000000000000000000000000000000011204034560000000000000000000000000000000000112040345600000000000000000000000000000000001120403456000000000000000000000000000000000011204034560000000000000000000000000000000000112040345600000000000000000000000000000000001120403456000000000000000000000000000000000011204034560000000000000000000000000000000000112040345600000000000000000000000000000000001120403456000000000000000000000000000000000011204034560000000000000000000000000000000000112040345600000000000000000000000000000000001120403456000000000000000000000000000000000011204034560000000000000000000000000000000000)
 (.leaf 11204034560000000000000000000000000000000000112040345600000000000000000000000000000000001120403456000000000000000000000000000000000011204034560000000000000000000000000000000000112040345600000000000000000000000000000000001120403456000000000000000000000000000000000011204034560000000000000000000000000000000000112040345600000000000000000000000000000000001120403456000000000000000000000000000000000011204034560000000000000000000000000000000000112040345600000000000000000000000000000000001120403456000000000000000000000000000000000011204034560000000000000000000000000000000000112040345600000000000000000000000000000000001120403456000000000000000000000000000000000011204034560000000000000000000000000000000000)))))
 (.node 8 (.node 4 (.node 2 (.node 1 (.leaf 11204034560000000000000000000000000000000000112040345600000000000000000000000000000000001120403456000000000000000000000000000000000011204034560000000000000000000000000000000000112040345600000000000000000000000000000000001108344832000000000000000000000000000000000011196170240000000000000000000000000000000000112040345600000000000000000000000000000000001120403456000000000000000000000000000000000011204034560000000000000000000000000000000000112040345600000000000000000000000000000000001120403456000000000000000000000000000000000011204034560000000000000000000000000000000000112040345600000000000000000000000000000000001120403456000000000000000000000000000000000011204034560000000000000000000000000000000000)
 (.leaf 11204034560000000000000000000000000000000000112040345600000000000000000000000000000000001120403456000000000000000000000000000000000011204034560000000000000000000000000000000000112040345600000000000000000000000000000000001120403456105426827500000000000000000000000011091312640000000000000000000000000000000000109681049600000000001022685400101043612400001114898432000000000010710432091052044946000010863247360000000000000000000010454298950000112040345600000000000000000000103758018100001120403456000000000000000000001039145928000011204034560000000000000000000010386666082839112040345600000000000000000000000000000000001120403456000000000000000000001033497166000011204034560000000000000000000010410988302840))
 (.node 1 (.leaf 11204034560000000000000000000010506747112841112040345600000000000000000000105986185800001120403456000000000000000000001057408011284211204034560000000000000000000000000000000000110205337600000000000000000000000000000000001120403456000000000000000000000000000000000011204034561021640649000000000010243673102843112040345600000000000000000000104884285400001120403456000000000000000000001071709931000011204034560000000000000000000000000000000000112040345610794323201036550092104700665200001120403456000000000000000000000000000000000011204034560000000000000000000000000000000000112040345600000000000000000000000000000000001120403456106536713300000000000000000000000011204034561102340943103395968910421863150000)
 (.leaf 10779361280000000000107330897200000000000000107400170300000000000000000000000000000000001112801280000000000000000000001049887431000011120148480000000000000000000010714523762844110755840000000000000000000000000000000000001086324736000000000000000000000000000000000011020533760000000000000000000010499767010000112040345600000000000000000000000000000028451120403456000000000000000000000000000000284611204034560000000000000000000009826023542847112040345600000000000000000000107534140100001120403456000000000000000000001065992849284811204034560000000000000000000010607754322849112040345600000000000000000000000000000028501120403456000000000000000000001047985059285111204034560000000000000000000010282320510000)))
 (.node 2 (.node 1 (.leaf 11204034560000000000108313098310326391660000112040345600000000000000000000000000000000001120403456000000000000000000000000000000000011204034560000000000000000000000000000000000109366476800000000000000000000000000000000001077936128000000000000000000000000000000000011148984320000000000000000000010395865180000112040345600000000000000000000106675945500001120403456000000000000000000001069241560000011204034560000000000000000000010661829072852112040345600000000000000000000107751029600001118961664000000000000000000000000000000000011083448320000000000000000000000000000000000108620727500000000000000000000000000000000001111228416000000000010718761980000000000000011204034560000000000107435838700000000000000)
 (.leaf 11204034560000000000000000000000000000000000112040345600000000000000000000000000000000001120403456000000000010232759580000000000000011204034560000000000106974633000000000000000112040345600000000000000000000000000000000001120403456000000000000000000000000000000000011204034560000000000000000000000000000000000112040345600000000000000000000000000000000001120403456000000000000000000000000000000000011204034560000000000000000000000000000000000112040345600000000000000000000000000000000001120403456104624457100000000000000000000000011204034560000000000000000000000000000000000112040345600000000000000000000000000000000001120403456000000000000000000000000000000000011204034560000000000000000000000000000000000))
 (.node 1 (.leaf 11204034560000000000000000000000000000000000112040345600000000000000000000000000000000001120403456000000000000000000000000000000000011204034560000000000000000000000000000000000112040345600000000000000000000000000000000001120403456000000000000000000000000000000000011204034560000000000000000000000000000000000112040345600000000000000000000000000000000001120403456000000000000000000000000000000000011204034560000000000000000000000000000000000112040345600000000000000000000000000000000001120403456000000000000000000000000000000000011204034560000000000000000000000000000000000112040345600000000000000000000000000000000001120403456000000000000000000000000000000000011204034560000000000000000000000000000000000)
 (.leaf 11204034560000000000000000000000000000000000112040345600000000000000000000000000000000001120403456000000000000000000000000000000000011204034560000000000000000000000000000000000112040345600000000000000000000000000000000001120403456000000000000000000000000000000000011204034560000000000000000000000000000000000112040345600000000000000000000000000000000001120403456000000000000000000000000000000000011204034560000000000000000000000000000000000112040345600000000000000000000000000000000001120403456000000000000000000000000000000000011204034560000000000000000000000000000000000112040345600000000000000000000000000000000001120403456000000000000000000000000000000000011020533760000000000000000000000000000000000))))
 (.node 4 (.node 2 (.node 1 (.leaf 11204034560000000000000000000000000000000000112040345600000000000000000000000000000000001120403456000000000000000000000000000000000011204034560000000000000000000000000000000000112040345600000000000000000000000000000000001120403456000000000000000000000000000000000011204034560000000000000000000000000000000000112040345600000000000000000000000000000000001120403456000000000000000000000000000000000011204034560000000000000000000000000000000000112040345600000000000000000000000000000000001120403456000000000000000000000000000000000011204034560000000000000000000000000000000000112040345600000000000000000000000000000000001120403456000000000000000000000000000000000011204034560000000000000000000000000000000000)
 (.leaf 11204034560000000000000000000000000000000000109051904000000000000000000000000000000000001099431936000000000000000000000000000000000011204034560000000000000000000010312785112853112040345600000000000000000000104654615228541120403456000000000000000000001050948117000011204034560000000000000000000000000000000000112040345600000000000000000000103419963100001120403456000000000000000000001054972419285511204034560000000000000000000000000000002856112040345600000000000000000000105249701200001120403456000000000000000000001022426059285711204034561035480510000000000010266833180000112040345600000000000000000000105197603700001120403456000000000000000000000000000000285811204034560000000000000000000000000000002859))
 (.node 1 (.leaf 11204034560000000000000000000000000000000000112040345600000000000000000000000000000000001120403456000000000000000000000000000000000011204034561030846107000000000000000000000000112040345600000000000000000000000000000000001120403456000000000000000000000000000000286011204034560000000000000000000010515708782861112040345600000000001082300511000000000000001120403456108045518910162966361028783419000011204034561068096433103371809800000000000000112040345600000000000000000000000000000000001120403456000000000000000000000000000000000010936647680000000000000000000000000000000000107793612800000000000000000000000000000000001055255110000000000000000000000000000000000010863247360000000000000000000000000000000000)
 (.leaf 11200102400000000000000000000000000000000000111896166400000000000000000000000000000000001077936128000000000000000000000000000000000011204034560000000000000000000000000000000000112040345600000000000000000000104898214600001120403456000000000000000000001040561632286211204034560000000000000000000010558281462863112040345600000000000000000000101781294928641120403456000000000000000000001047417505286511204034560000000000000000000010668498550000112040345600000000000000000000106581957228661120403456000000000000000000000000000000000011204034560000000000000000000000000000002867112040345600000000000000000000103464458800001120403456000000000000000000000000000000000010936647680000000000000000000000000000000000)))
 (.node 2 (.node 1 (.leaf 10994319360000000000000000000000000000000000108632473600000000000000000000000000000000001083867587000000000000000000000000000000000010863247360000000000000000000000000000000000110913126400000000000000000000000000000000001117519872000000000000000000001030474650000011141120000000000000000000000010205196150000111751987200000000000000000000101800632500001116733440000000000000000000000000000000000011112284160000000000000000000000000000000000109366476800000000000000000000000000000000001120403456000000000010769437560000000000000011204034560000000000000000000000000000000000112040345600000000000000000000000000000000001120403456000000000000000000000000000000000011204034560000000000000000000000000000000000)
 (.leaf 11204034560000000000000000000000000000000000112040345600000000000000000000000000000000001120403456000000000000000000000000000000000011204034560000000000000000000000000000000000112040345600000000000000000000000000000000001120403456000000000000000000000000000000000011204034560000000000000000000000000000000000112040345600000000000000000000000000000000001120403456000000000000000000000000000000000011204034560000000000000000000000000000000000112040345600000000000000000000000000000000001120403456000000000000000000000000000000000011204034560000000000000000000000000000000000112040345600000000000000000000000000000000001120403456000000000000000000000000000000000011204034560000000000000000000000000000000000))
 (.node 1 (.leaf 11204034560000000000000000000000000000000000112040345600000000000000000000000000000000001120403456000000000000000000000000000000000011204034560000000000000000000000000000000000112040345600000000000000000000000000000000001120403456000000000000000000000000000000000011204034560000000000000000000000000000000000112040345600000000000000000000000000000000001120403456000000000000000000000000000000000011204034560000000000000000000000000000000000112040345600000000000000000000000000000000001120403456000000000000000000000000000000000011204034560000000000000000000000000000000000112040345600000000000000000000000000000000001120403456000000000000000000000000000000000011204034560000000000000000000000000000000000)
 (.leaf 11204034560000000000000000000000000000000000112040345610657572950000000000000000000000001120403456000000000000000000000000000000000011204034560000000000000000000000000000000000112040345600000000000000000000000000000000001120403456000000000000000000000000000000000011204034560000000000000000000000000000000000112040345600000000000000000000000000000000001120403456000000000000000000000000000000000011204034560000000000000000000000000000000000112040345600000000000000000000000000000000001120403456000000000000000000000000000000000011204034560000000000000000000000000000000000112040345600000000000000000000000000000000001120403456000000000000000000000000000000000011204034560000000000000000000000000000000000))))))
 (.node 16 (.node 8 (.node 4 (.node 2 (.node 1 (.leaf 11204034560000000000000000000000000000000000112040345600000000000000000000000000000000001120403456000000000000000000000000000000286811204034560000000000000000000010538080830000112040345600000000000000000000105205047300001120403456000000000000000000000000000000000011204034560000000000000000000000000000000000112040345600000000000000000000104038849700001120403456000000000000000000000000000000000011204034560000000000000000000000000000000000112040345600000000000000000000104773724500001119617024109345888010768045051059953105286911128012801088027307105871447210672559232870110048051200000000000000000000105788652000001090519040000000000000000000000000000000000011204034560000000000000000000000000000000000)
 (.leaf 11204034560000000000000000000000000000000000112040345600000000000000000000000000000000001120403456000000000000000000000000000000287111204034560000000000000000000000000000000000112040345600000000001068945218000000000000001120403456000000000000000000000000000000000011204034560000000000000000000000000000000000112040345600000000000000000000000000000000001069804966000000000000000000000000000000000011141120000000000000105873292710460059350000111896166400000000000000000000105129921028721120010240000000000010610699931029666664000011179130880000000000000000000000000000000000111122841600000000000000000000000000000000001077936128000000000000000000000000000000000010863247360000000000000000000000000000000000))
 (.node 1 (.leaf 11196170240000000000000000000010685209680000112040345600000000000000000000000000000028731120403456000000000000000000001056077006287411204034560000000000000000000010365151592875112040345600000000000000000000106250428128761120403456000000000000000000001069127525287711204034560000000000000000000010541204262878112040345600000000000000000000105961974328791120403456000000000000000000001032741360288011204034560000000000000000000000000000002881112040345600000000000000000000000000000000001086324736000000000000000000001043740873000011204034560000000000000000000000000000000000112040345600000000000000000000105431765500001088923611000000000000000000000000000000000011204034560000000000000000000000000000000000)
 (.leaf 11204034560000000000000000000000000000002882112040345600000000000000000000000000000028831106771968000000000000000000001018394930000010779361280000000000000000000010481929560000105631871900000000000000000000000000000000001120403456000000000010686029630000000000000011204034560000000000000000000000000000000000112040345600000000000000000000000000000000001120403456000000000000000000000000000000000011204034560000000000000000000000000000000000112040345600000000000000000000000000000000001120403456000000000000000000000000000000000011204034560000000000000000000000000000000000112040345600000000000000000000000000000000001120403456000000000000000000000000000000000011204034560000000000000000000000000000000000)))
 (.node 2 (.node 1 (.leaf 11204034560000000000000000000000000000000000112040345600000000000000000000000000000000001120403456000000000000000000000000000000000011204034560000000000000000000000000000000000112040345600000000000000000000000000000000001120403456000000000000000000000000000000000011204034560000000000000000000000000000000000112040345600000000000000000000000000000000001120403456000000000000000000000000000000000011204034560000000000000000000000000000000000112040345600000000000000000000000000000000001120403456000000000000000000000000000000000011204034560000000000000000000000000000000000112040345600000000000000000000000000000000001120403456000000000000000000000000000000000011204034560000000000000000000000000000000000)
 (.leaf 11204034560000000000000000000000000000000000112040345600000000000000000000102253953700001120403456000000000000000000000000000000000011204034560000000000000000000000000000000000112040345600000000000000000000000000000000001120403456000000000000000000000000000000000011204034560000000000000000000000000000000000112040345600000000000000000000000000000000001120403456000000000000000000000000000000000011204034560000000000000000000000000000000000112040345600000000000000000000000000000000001120403456000000000000000000000000000000000011204034560000000000000000000000000000000000111607808000000000000000000000000000000000001120403456000000000000000000000000000000000011204034560000000000000000000000000000000000))
 (.node 1 (.leaf 11204034560000000000000000000000000000000000112040345600000000000000000000000000000000001120403456000000000000000000000000000000000011204034560000000000000000000000000000000000112040345600000000000000000000000000000000001120403456000000000000000000000000000000000011204034560000000000000000000000000000000000112040345600000000000000000000000000000000001120403456000000000000000000000000000000000011204034560000000000000000000000000000000000112040345600000000000000000000000000000000001120403456000000000000000000001072380813000011204034560000000000000000000000000000002884112040345600000000000000000000000000000028851120403456000000000000000000001008975860288611204034560000000000000000000010328969750000)
 (.leaf 11204034560000000000000000000010413456782887112040345600000000000000000000102566799728881120403456000000000000000000000000000000000011204034560000000000000000000000000000002889112040345600000000000000000000000000000000001120403456000000000000000000001042624657000010936647680000000000106873466410442693672890111961702400000000000000000000000000000000001120403456000000000000000000001046562335000011204034560000000000000000000000000000000000112040345600000000000000000000000000000000001120403456000000000000000000000000000000000011204034560000000000000000000000000000002891112040345600000000000000000000105994380900001120403456000000000000000000000000000000000011204034560000000000000000000000000000000000))))
 (.node 4 (.node 2 (.node 1 (.leaf 11204034560000000000000000000000000000000000112040345600000000000000000000000000000000001120403456000000000000000000000000000000000011204034560000000000000000000000000000000000112040345609940599800000000000106385260800001109131264000000000000000000001057573851000011204034560000000000000000000010331829392892112040345600000000000000000000103523298228931120403456000000000000000000001055793874289410779361280000000000000000000000000000000000105180363400000000000000000000000000000000001077936128000000000000000000000000000000000011204034560000000000000000000000000000002895112040345600000000000000000000000000000000001120403456000000000000000000000000000000000011204034560000000000000000000000000000000000)
 (.leaf 11204034560000000000000000000000000000000000112040345600000000000000000000104630510300001120403456000000000000000000001021047775289611204034560000000000000000000000000000000000110991769600000000000000000000105129088900001086324736000000000000000000001029607425000011204034560000000000000000000000000000000000112040345600000000000000000000000000000000001120403456000000000000000000001055056223000011204034560000000000000000000010423885280000111751987200000000001067129923108633047000001116078080000000000010816707361036650785000010905190400000000000000000000000000000000000110519910400000000000000000000000000000000001099431936000000000000000000000000000000000010994319360000000000000000000010308668060000))
 (.node 1 (.leaf 11020533760000000000000000000000000000000000111896166410603768091035677676105433901828971120403456000000000000000000000000000000000011204034560000000000000000000010233227872898112040345600000000000000000000000000000000001120403456000000000000000000000000000000000011193548800000000000000000000010421134590000110048051200000000000000000000104202840300001064132959000000000000000000000000000000000010211518290000000000000000000000000000000000100898177000000000000000000000000000000000001008981770000000000000000000000000000000000011204034560000000000106768860400000000000000112040345600000000000000000000000000000000001120403456000000000000000000000000000000000011204034560000000000000000000000000000000000)
 (.leaf 11204034560000000000000000000000000000000000112040345600000000000000000000000000000000001120403456000000000000000000000000000000000011204034560000000000000000000000000000000000112040345600000000000000000000000000000000001120403456000000000000000000000000000000000011204034560000000000000000000000000000000000112040345600000000000000000000000000000000001120403456000000000000000000000000000000000011204034560000000000000000000000000000000000112040345600000000000000000000000000000000001120403456000000000000000000000000000000000011204034560000000000000000000000000000000000112040345600000000000000000000000000000000001120403456000000000000000000000000000000000011204034560000000000000000000000000000000000)))
 (.node 2 (.node 1 (.leaf 11204034560000000000000000000000000000000000112040345600000000000000000000000000000000001120403456000000000000000000000000000000000011204034560000000000000000000000000000000000112040345600000000000000000000000000000000001120403456000000000000000000000000000000000011204034560000000000000000000000000000000000112040345600000000000000000000000000000000001120403456000000000000000000000000000000000011204034560000000000000000000000000000000000112040345600000000000000000000000000000000001120403456000000000000000000000000000000000011204034560000000000000000000000000000000000112040345600000000000000000000000000000000001120403456000000000000000000000000000000000011204034560000000000000000000000000000000000)
 (.leaf 11204034560000000000000000000000000000000000112040345600000000000000000000000000000000001120403456000000000000000000000000000000000011204034560000000000000000000000000000000000112040345600000000000000000000000000000000001120403456000000000000000000000000000000000011204034560000000000000000000000000000000000112040345600000000000000000000000000000000001120403456000000000000000000000000000000000011193548800000000000000000000000000000000000112040345600000000000000000000000000000000001120403456000000000000000000000000000000000011204034560000000000000000000000000000000000112040345600000000000000000000000000000000001120403456000000000000000000000000000000000011204034560000000000000000000000000000000000))
 (.node 1 (.leaf 11204034560000000000000000000000000000000000112040345600000000000000000000000000000000001120403456000000000000000000000000000000000011204034560000000000000000000000000000000000110205337600000000000000000000000000000000001093664768000000000000000000001034832532000011204034560000000000000000000010688917332899112040345600000000000000000000104347451729001120403456000000000000000000001052469959000011204034560000000000000000000010179581762901112040345600000000000000000000104305819329021120403456000000000000000000000000000000000011204034560000000000000000000000000000000000112040345610836821570000000000000000000000001093664768000000000000000000000000000000000011051991040000000000000000000010355160380000)
 (.leaf 11160780800000000000000000000000000000000000112040345600000000000000000000000000000000001120403456000000000000000000000000000000290311204034560000000000000000000000000000000000112040345600000000000000000000000000000000001120403456000000000000000000000000000000290411204034560000000000000000000000000000002905112040345600000000000000000000000000000000001120403456000000000000000000000000000000000011204034560000000000000000000000000000000000112040345610164109900000000000000000000000001114112000000000000000000000001055865973290611204034560000000000000000000010492148692907112040345600000000000000000000000000000029081117126656000000000000000000000000000000290910863247360000000000000000000000000000000000)))))
 (.node 8 (.node 4 (.node 2 (.node 1 (.leaf 11204034560000000000000000000010191874212910112040345600000000000000000000000000000000001120403456000000000000000000000000000000000011175198720000000000000000000010583939830000111817523209877587260000000000107972274229111120010240000000000000000000001079838122000011204034560000000000000000000000000000000000112040345600000000000000000000103226487000001100480512000000000000000000001060845511000011075584000000000000000000000000000000000000112001024000000000000000000000000000000000001119617024000000000000000000000000000000000011156848640000000000000000000010165533720000109943193600000000000000000000000000000000001108344832000000000000000000000000000000000011156848640000000000000000000010308551160000)
 (.leaf 11128012800000000000000000000010498976070000111411200000000000000000000000102760478400001112014848000000000000000000000000000000000011175198721072125725105887721110350897432912110677196800000000000000000000000000000000001105199104000000000000000000001013212522000010863247360000000000000000000000000000000000107793612800000000000000000000000000000000001106771968000000000000000000001034717667000011204034560000000000000000000010480664032913112040345600000000000000000000105904086829141115684864000000000000000000001026284478000010905190400000000000000000000000000000000000107793612800000000000000000000000000000000001086324736000000000000000000001051121591000011204034561090845490000000000000000000000000))
 (.node 1 (.leaf 11204034560000000000000000000000000000000000112040345600000000000000000000000000000000001120403456000000000000000000000000000000000011204034560000000000000000000000000000000000112040345600000000000000000000000000000000001120403456000000000000000000000000000000000011204034560000000000000000000000000000000000112040345600000000000000000000000000000000001120403456000000000000000000000000000000000011204034560000000000000000000000000000000000112040345600000000000000000000000000000000001120403456000000000000000000000000000000000011204034560000000000000000000000000000000000112040345600000000000000000000000000000000001120403456106824279800000000000000000000000011204034561049644205000000000000000000000000)
 (.leaf 11204034560000000000000000000000000000000000112040345600000000000000000000000000000000001120403456000000000000000000000000000000000011204034560000000000000000000000000000000000112040345600000000000000000000000000000000001120403456000000000000000000000000000000000011204034560000000000000000000000000000000000112040345600000000000000000000000000000000001120403456000000000000000000000000000000000011204034561085844234000000000000000000000000112040345600000000000000000000000000000000001120403456000000000000000000000000000000000011204034560000000000000000000000000000000000112040345600000000000000000000000000000000001120403456000000000000000000000000000000000011204034560000000000000000000000000000000000)))
 (.node 2 (.node 1 (.leaf 11204034560000000000000000000000000000000000112040345600000000000000000000000000000000001120403456000000000000000000000000000000000011204034560000000000000000000000000000000000112040345600000000000000000000000000000000001120403456000000000000000000000000000000000011204034560000000000000000000000000000000000112040345600000000000000000000000000000000001120403456000000000000000000000000000000000010863247360000000000000000000000000000000000112001024000000000000000000000000000000000001120403456000000000000000000000000000000000011204034560000000000000000000000000000000000112040345600000000000000000000000000000000001120403456000000000000000000000000000000000011204034560000000000000000000000000000000000)
 (.leaf 11204034560000000000000000000000000000000000112040345600000000000000000000000000000000001120403456000000000000000000000000000000000011204034560000000000000000000000000000000000112040345600000000000000000000000000000000001120403456000000000000000000000000000000000011204034560000000000000000000000000000000000112040345600000000000000000000000000000000001120403456106272721300000000001064114995291511204034560000000000000000000010550009882916112040345600000000001027476973000000000029171120403456105421066200000000001038988526291811204034560000000000000000000000000000000000112040345600000000000000000000000000000029191120403456000000000000000000000000000000292011204034560000000000000000000010551369860000))
 (.node 1 (.leaf 11204034560000000000000000000000000000000000112040345600000000000000000000000000000000001120403456000000000000000000000000000000000011204034560000000000000000000000000000002921112040345600000000000000000000102031753229221120010240000000000000000000001049336257000011091312640000000000000000000010283312810000108632473600000000000000000000000000000000001110441984000000000000000000001036981757292311099176960000000000000000000010421832872924111935488000000000000000000000105054416300001120403456000000000000000000001059841372000011112284160000000000000000000000000000000000110913126400000000000000000000000000000000001120403456000000000000000000001038394134000011204034560000000000000000000000000000000000)
 (.leaf 11204034560000000000000000000000000000000000112040345600000000000000000000000000000029251120403456000000000000000000001060761161292611204034560000000000000000000010681464480000112040345600000000000000000000107354885000001120403456000000000000000000001032407150000011204034560000000000000000000010175355290000109943193600000000000000000000000000000000001106771968000000000000000000001018981769000010968104960000000000000000000010254246850000109366476800000000000000000000000000000000001090519040000000000000000000000000000000000011051991040000000000000000000010652019700000107834570200000000000000000000102985801700001086476046000000000000000000000000000000000010779361280000000000000000000010191118590000))))
 (.node 4 (.node 2 (.node 1 (.leaf 10659870590000000000000000000000000000000000107793612800000000000000000000102080781600001077936128000000000000000000000000000000000011204034560000000000000000000010414280740000112040345600000000000000000000000000000000001120403456000000000000000000000000000000000011204034560000000000000000000000000000000000112040345600000000000000000000000000000000001120403456000000000000000000000000000000000011204034560000000000000000000000000000000000112040345600000000000000000000000000000000001120403456000000000000000000000000000000000011204034560000000000000000000000000000000000112040345600000000000000000000000000000000001120403456000000000000000000000000000000000011204034560000000000000000000000000000000000)
 (.leaf 11204034560000000000000000000000000000000000112040345600000000000000000000000000000000001120403456000000000000000000000000000000000011204034560000000000000000000000000000000000112040345600000000000000000000000000000000001120403456000000000000000000000000000000000011204034560000000000000000000000000000000000112040345600000000000000000000000000000000001120403456100556029200000000000000000000000011204034561070410733000000000000000000000000112040345610357492140000000000000000000000001120403456000000000000000000000000000000000011204034561035583053000000000000000000000000112040345600000000000000000000000000000000001120403456000000000000000000000000000000000011204034560000000000000000000000000000000000))
 (.node 1 (.leaf 11204034560000000000000000000000000000000000112040345600000000000000000000000000000000001120403456000000000000000000000000000000000011204034561099243938000000000000000000000000112040345600000000000000000000000000000000001120403456000000000000000000000000000000000011204034560000000000000000000000000000000000112040345600000000000000000000000000000000001120403456000000000000000000000000000000000011204034560000000000000000000000000000000000112040345600000000000000000000000000000000001120403456105013648200000000000000000000000011204034560000000000000000000000000000000000112040345600000000000000000000000000000000001120403456000000000000000000000000000000000011204034560000000000000000000000000000000000)
 (.leaf 11204034560000000000000000000000000000000000112040345600000000000000000000000000000000001120403456000000000000000000000000000000000011075584000000000000000000000000000000000000111961702400000000000000000000000000000000001120403456000000000000000000000000000000000011204034560000000000000000000000000000000000112040345600000000000000000000000000000000001120403456000000000000000000000000000000000011204034560000000000000000000000000000000000112040345600000000000000000000000000000000001116340224000000000000000000000000000000000010994319360000000000000000000000000000000000109681049600000000000000000000000000000000001117519872107214733400000000000000000000000011204034561015785535000000000010236088582927)))
 (.node 2 (.node 1 (.leaf 11204034560000000000103892574510408059122928112040345600000000000000000000103598728229291120403456000000000000000000001034869832293011204034560000000000000000000010472839440000112040345600000000000000000000103352815400001120403456000000000000000000001010103665293111204034560000000000000000000010423213142932112040345600000000000000000000000000000000001120403456000000000000000000001036973159000011167334400000000000000000000010404284140000111935488000000000000000000000102344644300001120403456000000000000000000000000000000000011204034560000000000000000000000000000000000112040345600000000000000000000000000000000001120403456107485354100000000000000000000000011204034561078940043099607002510168265830000)
 (.leaf 11204034560000000000000000000010097164230000112040345600000000000000000000106276889600001120403456000000000000000000001048984807000011075584000000000000000000000000000000000000111634022400000000000000000000104713213729331120010240000000000000000000001070654144000011204034560000000000000000000000000000000000112040345600000000000000000000000000000000001120403456000000000000000000000000000000000011204034560000000000000000000000000000000000112040345600000000000000000000000000000000001120403456000000000000000000000000000000000011204034560000000000000000000010372608760000112040345600000000000000000000103459986000001120403456000000000000000000000000000000000011204034560000000000000000000000000000000000))
 (.node 1 (.leaf 11204034561031167424000000000010487127670000112040345600000000000000000000000000000029341110441984000000000000000000001077006970000010318597460000000000000000000000000000000000103039167200000000000000000000000000000000001093664768000000000000000000001018614546000010905190400000000000000000000000000000000000110048051200000000000000000000000000000000001057697252000000000000000000000000000000000011204034560000000000000000000010289214550000112040345600000000001066905947000000000000001120403456000000000000000000000000000000000011204034560000000000000000000000000000000000112040345600000000000000000000000000000000001120403456000000000000000000000000000000000011204034560000000000000000000000000000000000)
 (.leaf 11204034560000000000000000000000000000000000112040345600000000000000000000000000000000001120403456000000000000000000000000000000000011204034560000000000000000000000000000000000112040345600000000000000000000000000000000001120403456000000000000000000000000000000000011204034560000000000000000000000000000000000112040345610693309760000000000000000000000001120403456000000000000000000000000000000000011204034560000000000000000000000000000000000112040345600000000000000000000000000000000001120403456104743568600000000000000000000000011204034560000000000000000000000000000000000112040345600000000000000000000000000000000001120403456000000000000000000000000000000000011204034560000000000000000000000000000000000)))))))
 (.node 32 (.node 16 (.node 8 (.node 4 (.node 2 (.node 1 (.leaf 11204034560000000000000000000000000000000000112040345600000000000000000000000000000000001120403456000000000000000000000000000000000011204034560000000000000000000000000000000000112040345600000000000000000000000000000000001120403456000000000000000000000000000000000011204034560000000000000000000000000000000000112040345600000000000000000000000000000000001120403456000000000000000000000000000000000011204034560000000000000000000000000000000000112040345600000000000000000000000000000000001120403456000000000000000000000000000000000011204034560000000000000000000000000000000000112040345600000000000000000000000000000000001120403456000000000000000000000000000000000011204034560000000000000000000000000000000000)
 (.leaf 11204034560000000000000000000000000000000000112040345600000000000000000000000000000000001120403456000000000000000000000000000000000011204034560000000000000000000000000000000000112040345600000000000000000000000000000000001120403456000000000000000000000000000000000011204034560000000000000000000000000000000000112040345600000000000000000000000000000000001120403456000000000000000000000000000000000011204034560000000000000000000000000000000000112040345600000000001025141585000000000000001120403456000000000000000000000000000000000011204034560000000000000000000000000000000000112040345600000000000000000000103183219200001120403456000000000000000000000000000000000011083448320000000000000000000000000000000000))
 (.node 1 (.leaf 11204034560000000000000000000010453901562935112040345600000000001035140805104981050100001120403456000000000000000000001034653407000011204034560000000000000000000010485273810000112040345600000000000000000000105749182729361120403456000000000000000000001068304827293711204034560000000000000000000010429704752938112040345610295809700000000000102194231729391119354880000000000000000000001036102989000011204034560000000000000000000010676307900000112040345600000000000000000000000000000000001120403456000000000000000000000000000000000011204034560000000000000000000000000000000000112040345600000000000000000000105698270700001120403456000000000000000000001061090486000011204034560000000000000000000010442726772940)
 (.leaf 11204034560000000000000000000010470215412941112040345600000000000000000000000000000000001120403456000000000000000000000000000000000010905190400000000000000000000010317958950000109943193600000000000000000000000000000000001120403456000000000000000000000000000000000011204034560000000000000000000000000000000000111712665600000000000000000000000000000000001029563951000000000000000000000000000000000010089817700000000000000000000000000000000000111673344000000000000000000000107649753729421120403456000000000000000000001035159819000011204034560000000000000000000000000000002943112040345600000000000000000000000000000000001120403456000000000000000000000000000000000011204034560000000000000000000000000000000000)))
 (.node 2 (.node 1 (.leaf 11204034561045794807000000000010659411740000112040345600000000000000000000105491830529441120403456000000000000000000000000000000294511204034560000000000000000000000000000002946110913126400000000000000000000106642221700001036128581000000000000000000000000000000000010779361280000000000000000000000000000000000109051904000000000000000000000000000000000001077936128000000000000000000000000000000000010936647680000000000000000000000000000000000100898177000000000000000000000000000000000001086324736000000000000000000000000000000000011189616641101884497103150350500000000002947112040345600000000001082712601000000000000001120403456000000000000000000001063520939000011204034560000000000000000000000000000000000)
 (.leaf 11204034560000000000000000000000000000000000112040345600000000000000000000000000000000001120403456000000000000000000000000000000000011204034561034253895000000000000000000000000112040345600000000000000000000000000000000001120403456000000000000000000000000000000000011204034561075205246000000000000000000000000112040345600000000000000000000000000000000001120403456000000000000000000000000000000000011204034560991156582000000000000000000000000112040345600000000000000000000000000000000001120403456000000000000000000000000000000000011204034560000000000000000000000000000000000112040345600000000000000000000000000000000001120403456000000000000000000000000000000000011204034560000000000000000000000000000000000))
 (.node 1 (.leaf 11204034560000000000000000000000000000000000112040345600000000000000000000000000000000001120403456000000000000000000000000000000000011204034560000000000000000000000000000000000112040345600000000000000000000000000000000001120403456000000000000000000000000000000000011204034560000000000000000000000000000000000112040345600000000000000000000000000000000001120403456000000000000000000000000000000000011204034560000000000000000000000000000000000112040345600000000000000000000000000000000001120403456000000000000000000000000000000000011204034560000000000000000000000000000000000112040345600000000000000000000103396424700001120403456000000000000000000000000000000000011204034561051974661000000000000000000000000)
 (.leaf 11204034560000000000000000000000000000000000112040345600000000000993922541000000000000001120403456000000000000000000000000000000000011204034560000000000000000000000000000000000112040345600000000000000000000000000000000001120403456000000000000000000000000000000000011204034560000000000000000000000000000000000112040345600000000000000000000000000000000001120403456000000000000000000000000000000000011204034560000000000000000000000000000000000112040345600000000000000000000000000000000001120403456000000000000000000000000000000000011204034560000000000000000000000000000000000112040345600000000000000000000000000000000001120403456000000000000000000000000000000000011204034560000000000000000000000000000000000))))
 (.node 4 (.node 2 (.node 1 (.leaf 11204034560000000000000000000000000000000000112040345600000000000000000000000000000000001120403456000000000000000000000000000000000011204034560000000000000000000000000000000000111935488000000000000000000000000000000000001114112000000000000000000000000000000000000011067719680000000000000000000000000000000000105858198200000000000000000000000000000000001082278134000000000000000000000000000000000011204034560000000000000000000000000000002948112040345600000000000000000000000000000029491120403456000000000000000000001048414238000011204034560000000000000000000010391123450000112040345600000000000000000000104825612629501120403456000000000000000000001037823113000011204034560000000000000000000000000000002951)
 (.leaf 11204034561052359631000000000010193223400000110048051200000000000000000000000000000000001120403456110907288709532679911051925502000011135877120000000000000000000000000000000000110991769600000000000000000000103249298100001120403456000000000000000000000000000000000011204034560000000000000000000000000000002952112040345600000000000000000000102105487929531120403456000000000000000000001054467864295411204034560000000000000000000000000000000000112040345600000000000000000000000000000000001120403456000000000000000000000000000000000011204034560000000000000000000000000000000000112040345600000000000000000000091339896129551020538239000000000000000000000000000000000011051991040000000000000000000010262749320000))
 (.node 1 (.leaf 11204034560000000000000000000000000000002956111751987200000000000000000000000000000000001090519040000000000000000000000000000000000011135877120000000000000000000010595782410000112040345600000000000000000000000000000000001120403456000000000000000000000000000000000011204034560000000000000000000000000000000000112040345600000000000000000000000000000029571115684864000000000010168871941022706879295811196170240000000000000000000000000000002959112040345600000000000000000000000000000029601120403456000000000000000000001061784412000011204034560000000000000000000000000000000000112040345600000000000000000000000000000000001077936128000000000000000000001025425913000010742265180000000000000000000000000000000000)
 (.leaf 11067719680000000000000000000000000000000000110205337600000000000000000000000000000000001103626240000000000000000000000000000000000010661320140000000000000000000000000000000000112040345600000000000000000000000000000000001120403456000000000000000000000000000000000011204034560000000000000000000000000000000000112040345600000000000000000000000000000000001120403456000000000000000000000000000000000011204034560000000000000000000000000000000000112040345600000000000000000000000000000000001120403456108293157610593754941076177130296111204034560000000000000000000010207344170000112040345600000000000000000000000000000000001120403456000000000000000000000000000000000011204034560000000000000000000000000000000000)))
 (.node 2 (.node 1 (.leaf 11204034560000000000000000000000000000000000112040345610767732660000000000000000000000001120403456109316495100000000000000000000000011204034561068051353000000000000000000000000112040345610715735450000000000000000000000001120403456000000000000000000000000000000000011204034560000000000000000000000000000000000112040345610889202450000000000000000000000001120403456000000000000000000000000000000000011204034560000000000000000000000000000000000112040345600000000000000000000000000000000001120403456000000000000000000000000000000000011204034560000000000000000000000000000000000112040345600000000000000000000000000000000001120403456000000000000000000000000000000000011204034560000000000000000000010386589850000)
 (.leaf 11204034560000000000000000000000000000000000112040345600000000000000000000000000000000001120403456000000000000000000000000000000000011204034560000000000000000000000000000000000112040345600000000000000000000000000000000001120403456000000000000000000000000000000000011204034560000000000000000000000000000000000112040345600000000000000000000000000000000001120403456000000000000000000000000000000000011204034560000000000000000000000000000000000112040345600000000000000000000000000000000001120403456000000000000000000000000000000000011204034560000000000000000000000000000000000112040345600000000000000000000000000000000001120403456000000000000000000000000000000000011204034560000000000000000000000000000000000))
 (.node 1 (.leaf 11204034560000000000000000000000000000000000112040345600000000000000000000000000000000001120403456000000000000000000000000000000000011204034560000000000000000000000000000000000112040345600000000000000000000000000000000001120403456000000000000000000000000000000000011204034560000000000000000000000000000000000112040345600000000000000000000000000000000001120403456000000000000000000000000000000000011204034560000000000000000000000000000000000107793612800000000000000000000000000000000001120403456000000000000000000001058113954296211204034560000000000000000000000000000002963112040345600000000000000000000101928267200001114898432105042780200000000001075620358000010779361280000000000000000000010495289760000)
 (.leaf 11112284161097841920000000000000000000000000111712665611149786270000000000000000000000001120403456000000000000000000000000000000000011204034561063706062000000000000000000000000112040345609762691520000000000000000000000001120403456000000000000000000000000000000296411204034560000000000000000000010135205420000112040345600000000000000000000103788143900001120403456000000000000000000000000000000000011204034560000000000000000000000000000002965111896166400000000000000000000105777445229661103626240000000000000000000001020977482000011075584000000000000000000000010282142380000112040345600000000000000000000000000000000001118961664000000000000000000000000000000000011067719680000000000000000000000000000000000)))))
 (.node 8 (.node 4 (.node 2 (.node 1 (.leaf 10856676770000000000000000000010624910680000111411200000000000000000000000102413603200001100480512000000000000000000001049970619000010994319361055384731000000000010711859180000111817523210168914890000000000105114625600001120403456000000000000000000001051340147296711204034560000000000000000000000000000000000112040345600000000000000000000101973637800001120403456097943024800000000000000000000000011204034560000000000000000000000000000000000111280128000000000001092313468101326601600001113587712000000000010672842740000000000000011171266561058926603000000000000000000000000109051904000000000000000000000000000000000001067771987000000000000000000000000000000000011204034561081816241104969336310566475940000)
 (.leaf 11204034561077865810000000000000000000000000112040345610663589680000000000000000000000001120403456000000000010511898901031851442000011204034560000000000108221872200000000000000112040345600000000000000000000000000000000001120403456000000000000000000000000000000000011204034560000000000000000000000000000000000112040345600000000000000000000000000000000001120403456110293606210650847811080264415296811204034560000000000000000000000000000002969112040345600000000000000000000000000000000001120403456000000000000000000000000000000000011204034560000000000000000000010204629730000112040345610775944350000000000000000000000001120403456000000000000000000000000000000000011204034561086212324000000000000000000000000))
 (.node 1 (.leaf 11204034561079907380000000000000000000000000112040345600000000000000000000000000000000001120403456000000000000000000000000000000000011204034560000000000000000000000000000000000112040345600000000000000000000000000000000001120403456000000000010580383500000000000000011204034560000000000000000000000000000000000112040345600000000000000000000000000000000001120403456000000000000000000000000000000000011204034560000000000000000000000000000000000112040345600000000000000000000000000000000001120403456000000000000000000000000000000000011204034560000000000000000000000000000000000112040345600000000000000000000000000000000001120403456000000000000000000000000000000000011204034560000000000000000000000000000000000)
 (.leaf 11204034560000000000000000000000000000000000112040345600000000000000000000000000000000001120403456000000000000000000000000000000000011204034560000000000000000000000000000000000112040345600000000000000000000000000000000001120403456000000000000000000000000000000000011204034560000000000000000000000000000000000112040345600000000000000000000000000000000001120403456000000000000000000000000000000000011204034560000000000000000000000000000000000112040345600000000000000000000000000000000001120403456000000000000000000000000000000000011204034560000000000105888224400000000000000112040345600000000000000000000000000000000001083863351000000000000000000000000000000000011004805120000000000000000000000000000000000)))
 (.node 2 (.node 1 (.leaf 10686774540000000000000000000000000000000000112040345600000000000000000000000000000000001120403456000000000000000000000000000000000011204034560000000000000000000000000000000000112040345600000000000000000000000000000000001116340224000000000000000000001068306404000011204034560000000000000000000010402495142970112040345600000000000000000000000000000029711120403456000000000000000000001020700674000011204034560000000000000000000000000000000000112040345600000000000000000000105263226500001120403456000000000000000000001020810913000010905190401025812405000000000010323064140000108632473610853926610000000000000000000000001096810496000000000000000000000000000000000011128012800000000000000000000010368252360000)
 (.leaf 11204034561094798031000000000000000000000000112040345610843369400000000000000000000029721120403456000000000000000000000000000000000011204034560000000000000000000010530421950000112040345600000000000000000000105499285900001120403456000000000000000000001049768234000011204034560000000000000000000000000000000000112040345600000000000000000000000000000029731102053376000000000000000000000000000000000011204034560000000000000000000000000000002974110048051200000000000000000000000000000000001090519040000000000000000000001026279172000011181752320000000000000000000010731509620000112040345600000000000000000000000000000000001120403456000000000000000000000000000000000011204034560000000000000000000000000000000000))
 (.node 1 (.leaf 11204034560000000000000000000010186846912975112040345600000000000000000000000000000000001120403456000000000000000000000000000000000011204034560000000000000000000000000000000000112040345600000000000000000000000000000000001120403456110223749410793768711059168325297611185684481100483508108392035110774401292977110519910410845894371084827789106042614700001093664768000000000000000000000000000000000010779361280000000000000000000000000000000000110362624000000000000000000000000000000000001090519040000000000000000000000000000000000011204034560000000000000000000000000000000000112040345610862783701013384112102570056600001120403456103842927410681617220000000000000011204034560000000000000000000000000000000000)
 (.leaf 11204034561028300533000000000000000000000000112040345610820969151059932498000000000000001120403456105709926210168335071017517025000011204034560000000000000000000000000000000000112040345600000000000000000000000000000000001120403456000000000000000000000000000000000011204034560000000000000000000010444397360000112040345600000000000000000000000000000000001120403456106442671100000000000000000000000011204034561110768271104894174310578935500000112040345611063996091074311830108957448500001120403456000000000010656082300000000000000011204034560000000000106509652500000000000000112040345600000000000000000000000000000000001120403456000000000000000000000000000000000011204034560000000000000000000010394922400000))))
 (.node 4 (.node 2 (.node 1 (.leaf 11204034560000000000000000000010280546040000112040345600000000000000000000000000000000001120403456000000000000000000000000000000000011204034561091494446000000000000000000000000112040345610738895680000000000000000000000001120403456107656040000000000001031819405000011204034560000000000000000000000000000000000112040345600000000000000000000000000000000001120403456000000000000000000000000000000000011204034560000000000106702254900000000000000112040345600000000000000000000000000000000001120403456000000000000000000000000000000000011204034560000000000000000000000000000000000112040345600000000000000000000000000000000001120403456000000000000000000000000000000000011204034560000000000000000000000000000000000)
 (.leaf 11204034560000000000000000000000000000000000112040345600000000000000000000000000000000001120403456000000000000000000000000000000000011204034560000000000000000000000000000000000112040345600000000000000000000000000000000001120403456000000000000000000000000000000000011204034560000000000000000000000000000000000112040345600000000000000000000000000000000001120403456000000000000000000000000000000000011204034560000000000000000000000000000000000112040345600000000000000000000000000000000001120403456000000000000000000000000000000000011204034560000000000000000000000000000000000112040345600000000000000000000000000000000001120403456000000000000000000000000000000000011204034560000000000000000000000000000000000))
 (.node 1 (.leaf 11204034560000000000000000000000000000000000112040345600000000000000000000000000000000001120403456000000000000000000000000000000000011204034560000000000000000000000000000002978112040345600000000000000000000000000000000001093664768000000000000000000000000000000000010657827130000000000000000000000000000000000112040345600000000000000000000000000000000001120403456000000000000000000000000000000000011204034560000000000000000000000000000000000112040345600000000000000000000000000000000001120403456000000000000000000000000000000000011204034560000000000000000000000000000000000112040345600000000000000000000000000000000001120403456000000000000000000000000000000000011204034560000000000000000000000000000000000)
 (.leaf 11204034560000000000000000000000000000000000112040345600000000000000000000000000000000001118175232000000000000000000000000000000000011204034560000000000000000000010405886372979112040345600000000000000000000104223732629801120403456000000000010083375251020157189000011204034561016435149000000000010486246102981112040345600000000000000000000000000000000001120403456000000000000000000001042219399000011204034560000000000000000000010444450130000111044198400000000000000000000106175962400001120403456000000000000000000000000000000298211204034561100675061103053713700000000002983112040345600000000000000000000000000000000001120403456000000000000000000000000000000000011204034560000000000000000000010292674730000)))
 (.node 2 (.node 1 (.leaf 11204034560000000000000000000000000000000000112040345600000000000000000000000000000029841120403456000000000000000000000000000000000011204034560000000000000000000000000000002985111935488000000000000000000000000000000000001118961664000000000000000000000000000000298610875594130000000000000000000000000000000000109051904000000000000000000000000000000000001120403456000000000000000000001052405333000011204034560000000000000000000000000000002987112040345600000000000000000000000000000000001120403456000000000000000000000000000000000011204034560000000000000000000000000000000000112040345600000000000000000000000000000000001100480512000000000000000000000000000000000010994319360000000000000000000000000000000000)
 (.leaf 10779361280000000000000000000000000000000000109366476800000000000000000000000000000000001086324736000000000000000000000000000000000010666065580000000000000000000000000000000000104992217000000000000000000000000000000000001110441984000000000010615363991055367999000011204034560000000000107233505410406768840000112040345600000000000000000000000000000000001120403456000000000000000000000000000000000011204034560000000000000000000000000000000000112040345600000000000000000000000000000000001120403456104399602100000000000000000000000011204034560000000000000000000010156083350000112040345600000000000000000000104233940500001120403456000000000000000000000000000000000011204034561091192051000000000000000000000000))
 (.node 1 (.leaf 11204034560000000000000000000000000000000000112040345600000000001048582711000000000000001120403456000000000000000000000000000000000011204034560000000000000000000000000000000000112040345600000000000000000000000000000000001120403456000000000000000000000000000000000011204034560000000000000000000000000000000000112040345600000000000000000000000000000000001120403456000000000000000000000000000000000011204034560000000000000000000000000000000000112040345600000000001045643343000000000000001120403456000000000000000000000000000000000011204034560000000000000000000000000000000000112040345600000000000000000000000000000000001120403456000000000000000000000000000000000011204034560000000000000000000000000000000000)
 (.leaf 11204034560000000000000000000000000000000000112040345600000000000000000000000000000000001120403456000000000000000000000000000000000011204034560000000000000000000000000000000000112040345600000000000000000000000000000000001120403456000000000000000000000000000000000011204034560000000000000000000000000000000000112040345600000000000000000000000000000000001120403456000000000000000000000000000000000011204034560000000000000000000000000000000000112040345600000000000000000000000000000000001120403456000000000000000000000000000000000011204034560000000000000000000000000000000000112040345600000000000000000000000000000000001120403456000000000000000000000000000000000011204034560000000000000000000000000000000000))))))
 (.node 16 (.node 8 (.node 4 (.node 2 (.node 1 (.leaf 11204034560000000000000000000000000000000000111935488000000000000000000000000000000000001113587712000000000000000000000000000000000010863247360000000000000000000000000000000000112040345600000000000000000000000000000000001120403456000000000000000000000000000000000011204034560000000000000000000000000000000000112040345600000000000000000000000000000000001120403456000000000000000000000000000000000011204034560000000000000000000000000000000000112040345600000000000000000000000000000000001109917696000000000000000000000000000000000011204034560000000000000000000000000000002988112040345600000000001094564236102729748200001120403456000000000010978533051050023807000011204034560000000000000000000010481377802989)
 (.leaf 11020533760000000000000000000010762735510000112040345600000000000000000000104069507929901120403456000000000010714802550000000000299111204034561054083524000000000000000000002992112040345600000000000000000000103129140829931120403456000000000000000000001058149747000011204034560000000000000000000010440048950000112040345600000000000000000000105106801500001120403456000000000000000000001064537324000011204034560000000000105302867300000000002994112040345600000000000000000000104345361600001120403456000000000000000000000000000000299511204034560000000000000000000000000000002996112040345600000000000000000000103790281100001093664768000000000000000000001036015305000011141120000000000000000000000000000000000000))
 (.node 1 (.leaf 11204034560000000000000000000010389620352997110991769600000000000000000000000000000000001077936128000000000000000000001059694296000011204034560000000000000000000010575496780000112040345600000000000000000000105680406700001120403456000000000000000000001069016129000011204034560000000000000000000000000000000000112040345600000000000000000000000000000000001120403456000000000000000000000000000000000011204034560000000000000000000000000000000000112040345600000000000000000000000000000000001120403456000000000000000000000000000000000011204034560000000000000000000000000000000000111280128000000000000000000000106576316129981069118443000000000000000000000000000000000010863247360000000000000000000000000000000000)
 (.leaf 10089817700000000000000000000000000000000000100898177000000000000000000000000000000000001071501982000000000000000000000000000000000011204034560000000000000000000000000000000000112040345600000000000000000000000000000000001120403456000000000000000000000000000000000011204034560000000000000000000000000000000000112040345610529221380000000000000000000000001120403456000000000000000000000000000000000011204034560000000000000000000000000000000000112040345600000000000000000000000000000000001120403456000000000000000000001039113629000011204034560000000000000000000000000000000000112040345600000000000000000000000000000000001120403456107455638710384157180000000000000011204034561074094720000000000000000000000000)))
 (.node 2 (.node 1 (.leaf 11204034560000000000000000000000000000000000112040345600000000000000000000000000000000001120403456000000000000000000000000000000299911204034560000000000000000000000000000003000112040345600000000001057514901000000000030011120403456000000000000000000000000000000300211204034561074981077000000000000000000000000112040345600000000000000000000000000000000001120403456000000000000000000000000000000000011204034560000000000000000000000000000000000112040345600000000000000000000000000000000001120403456000000000000000000000000000000000011204034560000000000000000000000000000000000112040345600000000000000000000000000000000001120403456000000000000000000000000000000000011204034560000000000000000000010222561650000)
 (.leaf 11204034560000000000000000000000000000000000112040345600000000000000000000000000000000001120403456000000000000000000000000000000000011204034560000000000000000000000000000000000112040345600000000000000000000000000000000001120403456000000000000000000000000000000000011204034560000000000000000000000000000000000112040345600000000000000000000000000000000001120403456000000000000000000000000000000000011204034560000000000000000000000000000000000112040345600000000000000000000000000000000001120403456000000000000000000000000000000000011204034560000000000000000000000000000000000112040345600000000000000000000000000000000001120403456000000000000000000000000000000000011204034560000000000000000000000000000000000))
 (.node 1 (.leaf 11204034560000000000000000000000000000000000112040345600000000000000000000000000000000001120403456000000000000000000000000000000000011204034560000000000000000000000000000000000112040345600000000000000000000000000000000001120403456000000000000000000000000000000000011185684480000000000000000000000000000000000107793612800000000000000000000000000000000001120403456000000000000000000000000000000000011204034560000000000000000000000000000000000112040345600000000000000000000000000000000001120403456000000000000000000000000000000000011204034560000000000000000000000000000000000112040345600000000000000000000000000000000001120403456000000000000000000000000000000000011204034560000000000000000000010479936293003)
 (.leaf 11204034560000000000108863202310251208323004112040345600000000001097866936000000000000001120403456000000000000000000000000000000000011204034561090974456103102032110351579330000112040345600000000000000000000106073744400001120403456000000000000000000000000000000300511204034560000000000000000000000000000003006112040345600000000000000000000102431959100001120403456106546933100000000000000000000000011204034561111810773000000000000000000000000112040345610918672031090983769000000000000001120403456104690230500000000000000000000000011204034561051874837000000000000000000003007112040345600000000000000000000103183508600001120403456000000000000000000000000000000300811099176960000000000000000000010669930000000))))
 (.node 4 (.node 2 (.node 1 (.leaf 10779361280000000000000000000000000000000000111411200000000000000000000000000000000030091120403456000000000000000000001025164096301011128012800000000000000000000000000000003011110677196800000000000000000000000000000000001114112000000000000000000000001026882317000011193548800000000000000000000010622259150000112040345600000000000000000000107453346330121120403456000000000000000000000000000000301311204034560000000000106528275200000000000000112040345600000000000000000000000000000000001120403456000000000000000000000000000000000011204034560000000000000000000000000000000000112040345600000000000000000000000000000000001120403456000000000010767453651083056581000011204034560000000000106650413300000000003014)
 (.leaf 11204034561055004761108438864510558447890000112040345600000000000000000000000000000000001120403456000000000000000000000000000000000011204034560000000000000000000000000000000000112040345600000000000000000000000000000000001120403456000000000000000000000000000000000011204034560000000000000000000000000000000000112040345600000000000000000000000000000030151120403456000000000000000000001039388271301611204034560000000000000000000000000000000000112040345600000000000000000000000000000030171120403456000000000000000000000000000000000011204034560000000000000000000010457926780000112040345600000000000000000000000000000000001120403456000000000000000000001032294436000011204034560000000000000000000010596600140000))
 (.node 1 (.leaf 11204034560000000000000000000000000000000000112040345600000000000000000000000000000000001120403456000000000000000000000000000000000011204034561045803800107226039610596484423018112040345600000000001098492936106654586230191120403456000000000010596288301032958514000011204034560000000000000000000000000000000000112040345600000000001100579969000000000000001120403456000000000000000000000000000000000011204034560000000000000000000000000000000000112040345600000000000000000000000000000000001120403456000000000000000000000000000000000011204034560000000000000000000000000000000000112040345600000000000000000000000000000000001120403456000000000000000000000000000000000011204034560000000000000000000000000000000000)
 (.leaf 11204034560000000000000000000000000000000000112040345600000000000000000000000000000000001120403456000000000000000000000000000000000011204034560000000000000000000000000000000000112040345600000000000000000000000000000000001120403456000000000000000000000000000000302011204034560000000000000000000000000000000000112040345600000000000000000000000000000000001120403456000000000000000000000000000000000011181752320000000000000000000000000000000000109943193600000000000000000000000000000000001077936128000000000000000000000000000000000011204034560000000000000000000000000000000000112040345600000000000000000000000000000000001120403456000000000000000000000000000000000011204034560000000000000000000000000000000000)))
 (.node 2 (.node 1 (.leaf 11204034560000000000000000000000000000000000111673344000000000000000000000000000000000001117126656000000000000000000001059947731302111204034560000000000103881837100000000003022112040345600000000001097796996101689325400001120403456000000000010978483771033478735000011204034560000000000109656355600000000000000112040345600000000001075836459000000000000001120403456000000000000000000001021361126000011120148481077335034000000000010598138840000112040345600000000000000000000000000000000001120403456000000000000000000000000000000000011204034561058097238000000000000000000000000112040345600000000000000000000000000000000001120403456000000000000000000000000000000302311204034560000000000000000000000000000003024)
 (.leaf 11204034560000000000000000000000000000000000107793612800000000000000000000000000000000001100480512000000000000000000000000000000302511148984320000000000000000000000000000003026110048051200000000000000000000000000000000001116078080000000000000000000000000000000000011135877120000000000000000000000000000000000111712665600000000000000000000105496101100001107558400000000000000000000000000000000000011104419840000000000000000000000000000000000108608620600000000000000000000000000000000001116078080106851550300000000001066180211000011204034560000000000000000000010513551540000112040345600000000001021665346000000000030271120403456104022725510414557500000000000302810617446720000000000000000000000000000000000))
 (.node 1 (.leaf 10936647680000000000000000000000000000000000109051904000000000000000000000000000000000001086324736000000000000000000000000000000000011204034561078583049105753000000000000000000112040345600000000000000000000000000000000001120403456000000000000000000001033029799000011204034560000000000000000000000000000000000112040345600000000000000000000000000000000001120403456105892863300000000000000000000000011204034560000000000000000000000000000000000112040345600000000000000000000000000000030291120403456000000000000000000000000000000000011204034561080763211102626901410367194630000112040345600000000000000000000000000000000001120403456000000000000000000000000000000000011204034560000000000105015976900000000000000)
 (.leaf 11204034560000000000000000000000000000000000112040345610734074881107536170000000000000001120403456106125878710977699430000000000000011204034560000000000100274064600000000003030112040345610804610361064440535107290736530311120403456102934770010960093840000000000000011204034561056735565109114116000000000000000112040345610668437631075792419000000000000001120403456000000000010920334980000000000000011204034560000000000104860955400000000000000112040345600000000000000000000000000000000001120403456000000000000000000000000000000000011204034560000000000000000000000000000000000112040345600000000000000000000000000000000001120403456000000000000000000000000000000000011204034560000000000000000000000000000000000)))))
 (.node 8 (.node 4 (.node 2 (.node 1 (.leaf 11204034560000000000000000000000000000000000112040345600000000000000000000000000000000001120403456000000000000000000000000000000000011204034560000000000000000000000000000000000112040345600000000000000000000000000000000001120403456000000000000000000000000000000000011204034560000000000000000000000000000000000112040345600000000000000000000000000000000001120403456000000000000000000000000000000000011204034560000000000000000000000000000000000112040345600000000000000000000000000000000001120403456000000000000000000000000000000000011181752320000000000000000000010247027490000112040345600000000000000000000000000000000001120403456000000000000000000000000000000000011051991040000000000103535555400000000000000)
 (.leaf 10994319360000000000000000000000000000000000111280128000000000000000000000105853297400001120403456000000000000000000000967763720000011204034560000000000108429028910371921870000112040345600000000001097754739104147620400001120403456000000000010977689991045764420303211204034560000000000109765984310631411550000112040345600000000001097744882104862307200001120403456000000000010843662060000000000000011204034560000000000000000000000000000000000112040345600000000000000000000101784861200001103626240000000000000000000001057344421000010779361280000000000000000000000000000000000112040345600000000000000000000000000000000001120010240108626272700000000000000000000303311204034560000000000000000000010330767700000))
 (.node 1 (.leaf 11204034560000000000000000000000000000000000112040345600000000000000000000000000000000001120403456000000000000000000000000000000000011204034561098470582104700565310549979683034112040345609923419930000000000000000000000001120403456109077596410162429490000000000303511204034560000000000000000000000000000000000109051904000000000000000000000000000000000001117913088000000000000000000000000000000000011163402240000000000000000000010759553240000109943193600000000000000000000000000000000001093664768000000000000000000000000000000000011004805120000000000000000000000000000000000111122841600000000000000000000106550423200001114898432000000000000000000001055889974000010954911770000000000000000000010202428240000)
 (.leaf 10936647680000000000000000000000000000000000112040345600000000000000000000000000000000001120403456104999592310441132611043848005000011204034560000000000000000000000000000000000112040345600000000000000000000000000000000001063303158000000000000000000000000000000000011204034561062690252000000000000000000000000112040345610668100401079301793000000000000001120403456000000000000000000000000000000000011204034560000000000000000000000000000000000112040345610633133750000000000000000000000001120403456105793361010411336271062764272000011204034561050772104108040489500000000000000112040345600000000000000000000000000000000001120403456000000000010554479480000000000000011204034560000000000000000000000000000003036)))
 (.node 2 (.node 1 (.leaf 11204034560000000000106533811710206553150000112040345600000000000000000000000000000030371120403456000000000010742224910000000000000011204034560000000000000000000000000000000000112040345600000000000000000000000000000000001120403456000000000000000000001064240360000011204034560000000000105846952400000000000000112040345600000000001077421906000000000030381120403456108239912810841791401053542649303911204034560000000000109448852900000000000000112040345600000000001083223468000000000000001120403456000000000000000000000000000000000011204034560000000000000000000010250952650000112040345600000000000000000000000000000000001120403456000000000000000000000000000000000011204034560000000000000000000000000000000000)
 (.leaf 11204034560000000000000000000000000000000000112040345600000000000000000000000000000000001120403456000000000000000000000000000000000011204034560000000000000000000000000000000000112040345610486100580000000000000000000000001120403456000000000000000000000000000000000011204034560000000000000000000000000000000000112040345600000000000000000000104850844600001120403456000000000000000000000000000000000011204034560000000000000000000000000000000000112040345600000000000000000000000000000000001102053376000000000010216116580000000000000011160780800000000000106309332500000000000000111044198400000000001063459068000000000000001090519040000000000000000000000000000000000011083448320000000000000000000000000000000000))
 (.node 1 (.leaf 11036262400000000000000000000000000000000000112040345610509024630000000000105523557400001120403456000000000000000000001025177528304011204034560000000000108995008310519252733041110913126400000000000000000000104779480200001116733440104150621500000000001050819285000011196170240000000000000000000000000000003042109943193600000000000000000000102546668500001120010240000000000000000000001060491581000011204034560000000000000000000000000000000000112040345600000000000000000000000000000000001120403456000000000000000000000000000000000011204034560000000000000000000010256557023043112040345600000000000000000000000000000030441116733440103354428600000000001043225871000011051991040000000000000000000010283398190000)
 (.leaf 11204034560000000000000000000000000000000000109366476800000000000000000000000000000000001107558400000000000000000000001035626781000011051991040000000000000000000000000000000000109051904000000000000000000000000000000000001117519872000000000000000000001046389856304511204034561068162385103752988110607247703046112040345600000000000000000000000000000000001120403456000000000000000000000000000000000010089817700000000000000000000000000000000000109051904000000000000000000000000000000000001116078080000000000000000000001070872875000011128012800000000000000000000000000000000000109051904000000000000000000000000000000000001086324736000000000000000000000000000000000010863247360000000000000000000010492051530000))))
 (.node 4 (.node 2 (.node 1 (.leaf 10905190400000000000000000000000000000000000112040345610411857031077433650000000000000001120403456106909836000000000000000000000000011204034560000000000000000000000000000000000112040345600000000000000000000000000000000001120403456000000000000000000001027581946000011204034560000000000000000000000000000000000112040345600000000000000000000000000000000001120403456107096522810768774860000000000000011204034561091617291107938274300000000000000112040345610362804481068191921000000000000001120403456000000000000000000000000000000000011204034560000000000000000000000000000003047112040345600000000000000000000104096817800001120403456000000000010253026460000000000304811204034560000000000000000000000000000003049)
 (.leaf 11204034560000000000105769106100000000003050112040345600000000001056988096000000000000001120403456000000000010827711120000000000305111204034560000000000108116742000000000003052112040345610742604411094203107101561648430531120403456105846122000000000000000000000000011204034560000000000106862980600000000000000112040345611169532180000000000000000000030541120403456110993861710775414441037401389000011204034560000000000109310147300000000000000112040345600000000001085204647000000000000001120403456000000000010791604450000000000000011204034560000000000000000000000000000000000112040345600000000000000000000000000000000001120403456099395690100000000000000000000000011204034561050537458000000000000000000000000))
 (.node 1 (.leaf 11204034560000000000000000000000000000000000112040345600000000000000000000000000000000001120403456000000000000000000000000000000000011204034560000000000000000000000000000000000112040345600000000000000000000000000000000001120403456000000000000000000000000000000000011204034560000000000000000000000000000000000112040345600000000000000000000000000000000001120403456000000000000000000000000000000000011204034560000000000109224069700000000000000112040345600000000000000000000000000000000001120403456000000000000000000000000000000000011204034560000000000000000000000000000000000112040345600000000000000000000000000000000001120403456000000000000000000000000000000000011204034560000000000000000000000000000000000)
 (.leaf 11204034560000000000000000000000000000000000112040345600000000000000000000000000000000001120403456000000000010748117910000000000000011204034560000000000000000000000000000000000111712665600000000001050200035104053157600001008981770000000000000000000000000000000000010779361280000000000000000000000000000000000107793612800000000000000000000000000000000001107558400000000000000000000000000000000000010968104960000000000000000000000000000000000111791308800000000000000000000107048406900001120403456000000000000000000001034921070000011204034560000000000000000000010466293600000109051904000000000001032979900105719294300001106771968000000000000000000001079894480000010936647680000000000000000000000000000000000)))
 (.node 2 (.node 1 (.leaf 11200102400000000000106334162800000000003055111896166400000000000000000000000000000000001120403456000000000000000000000000000000000011204034561084313358000000000000000000003056112040345600000000000000000000000000000000001120403456000000000000000000000000000000305711204034560000000000000000000010510986183058112040345600000000000000000000000000000000001086324736000000000000000000000000000000000011036262400000000000000000000000000000000000110834483200000000000000000000105126163000001093664768000000000000000000000000000000000010968104960000000000000000000000000000000000110834483200000000000000000000000000000000001112014848000000000000000000001012921852000011004805120000000000000000000000000000000000)
 (.leaf 11196170240000000000107096603410378268120000111791308800000000001077937806102880534400001093664768000000000000000000000000000000000011181752320000000000000000000010629306210000112040345600000000000000000000000000000030591120403456000000000000000000000000000000000011167334400000000000000000000010330999900000111751987200000000000000000000000000000000001105199104000000000000000000001056973529000011083448320000000000000000000000000000000000110834483200000000000000000000000000000030601069457930000000000000000000000000000000000011051991040000000000000000000000000000000000112040345600000000000000000000000000000000001120403456000000000000000000000000000000000011204034560000000000000000000000000000000000))
 (.node 1 (.leaf 11204034560000000000000000000000000000000000112040345600000000000000000000000000000000001120403456000000000000000000000000000000000011204034560000000000000000000000000000000000112040345600000000000000000000000000000000001120403456106976392100000000000000000000000011204034561060654824108797058100000000003061112040345610799122620000000000000000000000001120403456000000000000000000000000000000000011204034560000000000107677430600000000000000112040345610655889691058021573000000000000001120403456000000000010802522230000000000000011204034560000000000108953254000000000000000112040345600000000001078255734000000000000001120403456000000000000000000000000000000000011204034560000000000000000000000000000000000)
 (.leaf 11204034560000000000000000000000000000000000112040345600000000000000000000000000000030621120403456000000000000000000001028195531000011204034561064291973106445899000000000000000112040345600000000001085005837000000000000001120403456107995594111047078990000000000000011204034561066844199110973639700000000000000112040345610910701351107924851000000000000001120403456108470190511141180290000000000000011204034560000000000110331722500000000000000112040345610953897820000000000000000000000001120403456106450308110706640440000000000000011204034561082856596000000000000000000000000112040345600000000001075139786000000000000001120403456000000000000000000000000000000000011204034560000000000000000000000000000000000))))))))
 (.node 64 (.node 32 (.node 16 (.node 8 (.node 4 (.node 2 (.node 1 (.leaf 11204034560000000000000000000000000000000000112040345600000000000000000000000000000000001120403456000000000000000000000000000000000011204034560000000000000000000000000000000000112040345600000000000000000000000000000000001120403456000000000000000000000000000000000011204034560000000000000000000000000000000000112040345600000000000000000000000000000000001120403456000000000000000000000000000000000011204034560000000000000000000000000000003063112040345600000000000000000000000000000000001120403456105584895700000000000000000000306411204034560000000000000000000000000000000000112040345600000000000000000000000000000000001120403456000000000000000000000000000000000011204034560000000000000000000010326660820000)
 (.leaf 11036262400000000000000000000000000000000000109943193600000000000000000000000000000000001118175232000000000000000000000000000000000011067719680000000000000000000000000000000000111961702400000000000000000000104195994400001120403456000000000000000000000000000000306511204034560000000000000000000010390139320000112040345600000000000000000000000000000000001120403456000000000000000000001010839884000011036262400000000000000000000010719165100000110677196800000000000000000000000000000000001116078080000000000000000000001077089104000011204034560000000000000000000010495988360000111280128000000000000000000000000000000000001075759536000000000000000000000000000000000011204034560000000000000000000000000000000000))
 (.node 1 (.leaf 11204034560000000000000000000000000000000000112040345610818497491012847241102068527800001120403456000000000000000000000000000000000011204034560000000000000000000000000000003066112040345600000000000000000000000000000030671110441984000000000000000000001059911942000010905190400000000000000000000000000000000000109051904000000000000000000000104116804400001086324736000000000000000000000000000000000011112284160000000000000000000010658210640000109366476800000000000000000000106363862900001093664768000000000000000000001034492298000010968104960000000000000000000000000000000000110755840000000000000000000000000000000000001118961664000000000000000000001043222389000010779361280000000000000000000000000000000000)
 (.leaf 11171266560000000000000000000000000000003068112040345610491198170000000000000000000000001112801280000000000000000000000000000000000011141120000000000000000000000010601590420000112040345600000000000000000000000000000000001083366850000000000000000000000000000000000011193548800000000000000000000000000000003069112001024000000000000000000000000000000000001116733440000000000010598553220000000000000010863247360000000000000000000000000000000000109051904000000000000000000000000000000000001093664768000000000000000000000000000000000010863247360000000000000000000000000000000000111568486400000000000000000000108216682900001120403456000000000000000000001024178345000011204034560000000000000000000000000000000000)))
 (.node 2 (.node 1 (.leaf 11204034560000000000000000000000000000000000112040345600000000000000000000000000000000001120403456107768946110358521591058565688000011204034560000000000000000000000000000000000112040345610811744701025141585000000000000001120403456105291297710718233490000000000000011204034561070110924000000000000000000000000112040345600000000000000000000000000000000001120403456000000000000000000000000000000000011204034560000000000000000000000000000000000112040345600000000000000000000000000000000001120403456000000000000000000000000000000000011204034560000000000000000000000000000000000112040345600000000001008552274000000000030701120403456000000000010795144450000000000000011204034561093200863000000000000000000000000)
 (.leaf 11204034561006829992105166971900000000000000112040345610954541470000000000000000000000001120403456109364524411151711140000000000000011204034560000000000110467041200000000000000112040345611004730011089853823000000000000001120403456111817053200000000000000000000000011204034561080477293102766487800000000000000112040345600000000000000000000000000000000001120403456000000000000000000000000000000000011204034560000000000000000000000000000000000112040345600000000000000000000000000000000001120403456000000000000000000000000000000000011204034560000000000000000000000000000000000112040345600000000001069233786000000000000001120403456000000000000000000000000000000000011204034561072774383107057428600000000000000))
 (.node 1 (.leaf 11204034561063862879108061880500000000000000112040345600000000000000000000000000000000001120403456000000000000000000001066316837000011204034560000000000000000000000000000000000112040345610651346090000000000101766295400001120403456000000000010577028060000000000000011204034560000000000000000000000000000000000109943193600000000000000000000000000000000001102053376000000000000000000000000000000000011099176960000000000000000000000000000000000111411200000000000000000000000000000000000001120403456000000000000000000000000000000000011020533760000000000000000000000000000000000104775539300000000000000000000000000000000001120403456000000000000000000000000000000000011204034560000000000000000000010324380293071)
 (.leaf 11204034560000000000000000000010445253270000112040345600000000000000000000104401269400001083183056000000000000000000000000000000000011160780800000000000000000000010487242750000112040345600000000000000000000102368464700001090519040000000000000000000000000000000000011179130880000000000000000000010568186640000111935488000000000000000000000105031764600001120403456000000000000000000001024855591000011204034560000000000000000000010544039150000112040345600000000000000000000104194054730721120403456000000000000000000001027916292000011128012800000000000000000000000000000000000109681049600000000000000000000000000000000001093664768000000000000000000000000000000000011181752320000000000000000000000000000000000))))
 (.node 4 (.node 2 (.node 1 (.leaf 11200102400000000000000000000010569250760000110362624000000000000000000000000000000000001103626240000000000000000000000000000000000011175198720000000000110128576610323088210000111634022400000000000000000000000000000000001090519040000000000000000000000000000000000010474358200000000000000000000000000000000000103379284300000000000000000000000000000000001111228416106927239910372480240000000000000011204034561057383065106646386800000000000000112040345611051427401046441938105043057830731110441984000000000000000000001062814789307411204034560000000000000000000010342425130000112040345600000000000000000000000000000030751120403456000000000000000000000000000000000011204034560000000000000000000000000000003076)
 (.leaf 11200102400000000000000000000010531671370000111935488000000000000000000000107454780030771120403456000000000000000000000000000000307811204034560000000000000000000000000000000000106194509200000000000000000000000000000000001086324736000000000000000000000000000000000010994319360000000000000000000000000000000000109681049600000000000000000000000000000000001103626240000000000000000000000000000000000011075584000000000000000000000000000000000000110834483200000000000000000000000000000000001103626240000000000000000000000000000000000010863247360000000000000000000000000000000000111358771200000000000000000000102077170700001077936128000000000000000000001020980103000011204034560000000000000000000010546527200000))
 (.node 1 (.leaf 11204034560000000000000000000000000000000000112040345600000000000000000000000000000030791120403456000000000000000000000000000000000011204034560000000000000000000000000000000000112040345600000000001077309918000000000000001120403456109683357400000000000000000000000011204034560000000000107310764500000000003080112040345600000000001076687484000000000030811120403456000000000000000000000000000000000011204034560000000000000000000000000000000000112040345600000000000000000000000000000000001120403456000000000000000000000000000000308211204034560000000000105923792100000000000000112040345600000000000000000000000000000000001120403456000000000000000000000000000000000011204034560000000000000000000000000000000000)
 (.leaf 11204034560000000000000000000000000000003083112040345600000000000000000000000000000000001120403456000000000000000000000000000000000011204034560000000000000000000000000000000000112040345600000000000000000000000000000000001120403456107718465610670737201026154042000011204034561048724780103626823400000000003084112040345600000000000000000000000000000030851120403456000000000000000000000000000000000011204034560000000000000000000010349504240000112040345600000000001068718726000000000000001120403456000000000010891649090000000000000011204034560000000000000000000000000000000000112040345610917579490000000000000000000000001120403456111576593710884495700000000000000011204034561078756488000000000000000000000000)))
 (.node 2 (.node 1 (.leaf 11204034560000000000000000000000000000000000112040345600000000001070237902000000000000001120403456000000000000000000000000000000000011204034560000000000000000000000000000000000112040345600000000000000000000000000000000001120403456000000000010091965190000000000000011204034560000000000109181885500000000000000112040345600000000001056783414000000000000001120403456000000000000000000000000000000000011204034560000000000000000000000000000000000112040345600000000000000000000000000000000001120403456000000000000000000000000000000000011204034560000000000107744078100000000000000112040345600000000001079894868102647902800001120403456000000000000000000000000000000000011204034560000000000000000000000000000000000)
 (.leaf 11204034560000000000000000000000000000000000112040345600000000000000000000000000000000001120403456000000000000000000000000000000000011204034560000000000000000000000000000000000112040345600000000000000000000000000000000001117519872000000000000000000000000000000000011128012800000000000000000000000000000000000112001024000000000000000000000000000000000001120403456000000000000000000000000000000000011204034560000000000000000000000000000000000112040345600000000000000000000000000000000001120403456000000000000000000000000000000000011204034560000000000000000000000000000000000112040345600000000000000000000104436344630861093664768000000000000000000000000000000000011196170240000000000000000000000000000000000))
 (.node 1 (.leaf 11167334400000000000000000000010314441150000111634022400000000000000000000105640902500001119354880101343028300000000000000000000308711204034561109603742104912293710599283050000112040345600000000000000000000105795077600001117519872000000000000000000000000000000000011083448320000000000000000000000000000000000110362624000000000000000000000105145804900001057578302000000000000000000000000000000000010743600220000000000000000000000000000000000111712665600000000000000000000000000000000001112014848000000000000000000001055380335000011189616640000000000000000000010371572700000110991769600000000000000000000104795663900001112801280000000000010508845451028098245000010968104960000000000104335493000000000000000)
 (.leaf 11156848641068674358108402059500000000000000112001024000000000001080982032104950826630881120403456104215891610192494260000000000308911204034561089026136105409906010570788383090112001024010789314991044992387108846886730911120403456000000000000000000000000000000000011204034560000000000000000000000000000000000112040345600000000000000000000000000000000001120403456000000000000000000000000000000309211204034560000000000000000000000000000000000112040345600000000000000000000000000000000001120403456000000000000000000000000000000309311204034560000000000000000000000000000000000112040345600000000000000000000104660379400001120403456000000000000000000000000000000309411167334400000000000000000000000000000003095)))))
 (.node 8 (.node 4 (.node 2 (.node 1 (.leaf 11193548800000000000000000000000000000003096112040345610815499280000000000000000000000001099431936000000000000000000000000000000000011179130880000000000000000000010429984250000107793612800000000000000000000104036046500001120403456000000000000000000000000000000000011204034560000000000000000000000000000003097112040345600000000000000000000000000000000001120403456000000000000000000000000000000000011204034561036013623000000000000000000000000112040345600000000001064749236000000000000001120403456000000000000000000000000000000000011204034560000000000000000000000000000000000112040345600000000000000000000000000000000001120403456000000000000000000000000000000000011204034560000000000000000000000000000000000)
 (.leaf 11204034560000000000109709508000000000000000112040345610655534440000000000000000000000001120403456000000000000000000000000000000000011204034560000000000000000000000000000000000112040345600000000000000000000000000000000001120403456000000000000000000000000000000000011204034560000000000000000000000000000003098112040345600000000000000000000000000000030991120403456093993158100000000000000000000000011204034560000000000000000000000000000000000112040345600000000000000000000000000000000001120403456000000000000000000001033159392310011204034560000000000000000000000000000000000112040345610445951020000000000000000000031011120403456105644998410812747940000000000000011204034560000000000000000000000000000000000))
 (.node 1 (.leaf 11204034560000000000103863046610478469870000112040345600000000001070313400000000000000001120403456111977163000000000000982634832000011204034561043456063106378286900000000000000112040345611189166820000000000000000000000001120403456110423111010992614380000000000000011204034560000000000000000000000000000000000112040345600000000000000000000000000000000001120403456000000000010725397360000000000000011204034560000000000000000000000000000000000112040345600000000000000000000000000000000001120403456000000000010012374070000000000000011204034560000000000000000000000000000000000112040345600000000000000000000000000000031021120403456000000000000000000000000000000000011204034560000000000000000000000000000000000)
 (.leaf 11200102400000000000000000000000000000000000112040345600000000000000000000000000000000001120403456000000000000000000000000000000000011204034560000000000000000000000000000000000112040345600000000000000000000104026727131031120403456000000000010429120121036714597310411204034560000000000108075092500000000000000112040345600000000001097748657000000000000001116340224107457950610928224470000000000000011036262401098623107107638633310728463390000112001024000000000000000000000107206988200001108344832000000000000000000000000000000000010905190400000000000000000000000000000000000109943193600000000000000000000106346655000001096810496000000000000000000000000000000000011141120000000000000000000000000000000000000)))
 (.node 2 (.node 1 (.leaf 10905190400000000000000000000000000000000000110913126400000000000000000000105182839900001116078080000000000000000000000000000000000011120148480000000000000000000000000000000000110205337600000000001015222895103509299800001108344832000000000010901728000000000000000011036262400000000000106349430000000000000000110205337600000000000000000000104936117700001024960230000000000000000000000000000000000010863247360000000000106411170200000000000000111280128010856559481066896720000000000000001120403456104513177200000000001053687402000011204034560000000000000000000010420793583105112040345609342917521074112600106676995400001024470254000000000000000000000000000000000011204034560933741996000000000010411157283106)
 (.leaf 11204034560000000000000000000000000000000000112040345600000000000000000000000000000000001120403456000000000000000000000000000000000011204034560000000000000000000000000000000000112040345600000000000000000000000000000031071120403456000000000000000000000000000000310811204034560000000000000000000000000000003109112040345600000000000000000000000000000031101120403456000000000000000000000000000000311111204034560000000000000000000010419064293112112040345600000000000000000000105974143331131120403456000000000000000000001038083541000011204034560000000000000000000000000000000000112040345600000000000000000000104526443131141120403456000000000000000000000000000000000011204034560000000000000000000000000000000000))
 (.node 1 (.leaf 11204034560000000000000000000000000000000000112040345610712551641070030704000000000000001120403456000000000010557331600000000000000011204034560000000000000000000000000000000000112040345600000000000000000000000000000031151120403456000000000000000000000000000000000011204034560000000000000000000000000000000000112040345600000000000000000000000000000000001120403456000000000000000000000000000000000011204034560000000000107524002900000000000000112040345610461641070000000000000000000000001120403456000000000000000000000000000000000011204034560000000000000000000000000000000000112040345600000000000000000000000000000000001120403456000000000000000000000000000000000011204034560000000000000000000000000000000000)
 (.leaf 11204034560000000000000000000000000000000000112040345600000000000000000000000000000000001120403456000000000000000000001026105844311611204034560000000000000000000000000000000000112040345600000000000000000000000000000000001120403456000000000000000000000000000000000011204034560000000000000000000000000000000000112040345610972689151025597925104287092200001120403456107981807410186051811040395373000011204034561068436222101688719400000000000000112040345610682327570000000000000000000000001120403456000000000000000000000000000000000011204034560000000000000000000000000000000000112040345600000000000000000000000000000000001120403456108929325910408719021053600929000011204034560984116594104833440800000000000000))))
 (.node 4 (.node 2 (.node 1 (.leaf 11204034560000000000000000000000000000000000112040345600000000000000000000000000000000001120403456000000000010267253540000000000000011204034560000000000000000000000000000000000112040345600000000000000000000000000000000001120403456000000000000000000000000000000000011204034560000000000000000000000000000000000112040345600000000000000000000000000000000001120403456000000000000000000000000000000000011204034560000000000000000000000000000000000112040345600000000000000000000000000000000001120403456000000000000000000000000000000000011204034560000000000000000000000000000000000112040345600000000000000000000000000000000001120403456000000000000000000000000000000000011204034560000000000000000000000000000000000)
 (.leaf 11204034560000000000000000000000000000000000112040345600000000000000000000000000000000001120403456000000000000000000000000000000000011204034560000000000000000000000000000000000112040345600000000000000000000000000000031171120403456000000000000000000001043467228311811204034560000000000109100862000000000000000108632473600000000000000000000102362878800001108344832000000000010825160981084005264311910779361280000000000000000000000000000000000111935488000000000000000000000000000000000001106771968000000000000000000000000000000000010968104961096694001000000000000000000000000112001024011200102400000000000000000000000001100480512110048051200000000000000000000000010994319360000000000000000000000000000000000))
 (.node 1 (.leaf 11099176960000000000000000000010292574920000109051904000000000000000000000000000000000001120403456000000000000000000001023789266000011141120000000000000000000000000000000000000110755840000000000000000000000000000000000001117126656000000000000000000000000000000000010936647680000000000000000000000000000003120110519910400000000000000000000000000000031211093664768000000000000000000000000000000000010762871790000000000000000000000000000000000102456887800000000000000000000000000000000001030091588000000000000000000000000000000000010089817700000000000000000000000000000000000109681049610837774530000000000000000000000001116733440106636012610168871941059883563000011204034560000000000000000000010541732413122)
 (.leaf 11204034560000000000000000000010454826363123110834483210168952470000000000000000000031241118568448105210864400000000001068134040312511204034560000000000000000000010533467360000111856844800000000000000000000000000000031261116340224000000000000000000000000000000312711020533760000000000000000000000000000000000112040345600000000000000000000000000000000001120403456000000000000000000000000000000000011204034560000000000000000000000000000000000112040345600000000000000000000000000000031281120403456106831763300000000001057934455312911204034560000000000000000000010662175550000112040345600000000000000000000000000000031301120403456000000000000000000000000000000313111204034560000000000000000000000000000000000)))
 (.node 2 (.node 1 (.leaf 11204034560000000000000000000000000000000000112040345610811072231023504128105083266100001120403456109344577611049343910000000000000011075584001080384029109659165800000000000000112040345600000000000000000000000000000000001120403456000000000000000000000000000000000011204034560000000000000000000000000000000000112040345600000000000000000000000000000000001120403456000000000000000000000000000000000011204034560000000000000000000000000000000000112040345600000000000000000000000000000031321120403456000000000000000000000000000000313311204034560000000000000000000000000000003134112040345600000000000000000000000000000000001120403456000000000000000000000000000000000011204034560000000000000000000000000000000000)
 (.leaf 11204034560000000000109182514600000000000000112040345600000000000000000000000000000000001120403456000000000000000000000000000000000011204034560000000000000000000000000000000000112040345600000000000000000000000000000000001120403456000000000000000000000000000000000011204034560000000000000000000000000000000000112040345600000000000000000000103180355400001120403456000000000000000000001059076877313511204034560000000000000000000000000000003136112040345600000000001077417712000000000031371120403456000000000010566391300000000000000011204034560000000000000000000000000000000000112040345600000000000000000000000000000000001120403456000000000000000000000000000000000011204034561107753860104395219910523890690000))
 (.node 1 (.leaf 11204034561092305460105726156500000000000000112040345610333143710000000000000000000000001120403456111569087610578303121067883555000011204034561070624861000000000000000000000000112040345600000000000000000000000000000000001120403456000000000000000000000000000000000011204034560000000000000000000000000000000000112040345600000000000000000000000000000000001120403456000000000000000000000000000000000011204034560000000000000000000010269619350000112040345600000000000000000000000000000000001120403456000000000010722696230000000000000011204034560000000000000000000000000000000000112040345600000000001066276802000000000000001120403456109575069810370601190000000000313811204034560000000000000000000000000000000000)
 (.leaf 11204034560000000000000000000000000000003139112040345600000000000000000000000000000000001120403456000000000000000000000000000000000011204034560000000000000000000000000000000000112040345600000000000000000000104087635900001120403456000000000000000000001038875385000011204034560000000000000000000000000000000000112040345600000000000000000000000000000000001120403456000000000000000000000000000000000011204034560000000000000000000000000000000000112040345600000000001080432578107449207900001120403456000000000010976993741016369774000010863247360000000000000000000010249996920000107793612800000000000000000000100995410300001118175232000000000000000000001058024670314011141120000000000000000000000010824490050000))))))
 (.node 16 (.node 8 (.node 4 (.node 2 (.node 1 (.leaf 11051991040000000000000000000010504611490000112040345600000000000000000000000000000031411111228416000000000000000000000000000000000011075584001107531922000000000010369671280000112040345611204034560000000000000000000000001114898432111489843100000000000000000000000010968104961096378875000000000010502748820000110362624000000000000000000000000000000000001113587712000000000000000000000000000000000010779361280000000000000000000000000000000000110755840000000000000000000000000000000000001112014848000000000000000000001028790129000010905190400000000000000000000000000000000000109051904000000000000000000000000000000000001119617024102505917500000000001025939555314210589824370000000000000000000000000000000000)
 (.leaf 10397968180000000000000000000000000000000000111856844810866156261080655715105966367331431120403456000000000010738466821043723834000011200102400000000000000000000010498176533144111817523200000000000000000000103834591600001116078080000000000000000000000000000000000011189616640000000000000000000000000000000000112040345600000000000000000000000000000000001114112000104630349310504248490000000000000010691953670000000000000000000010078194870000110991769600000000000000000000000000000000001120403456000000000000000000001057980127000011193548800000000000000000000000000000000000110205337600000000000000000000000000000000001102053376000000000000000000001050256129000011189616640000000000000000000000000000000000))
 (.node 1 (.leaf 11204034561061485900000000000010944585680000112040345600000000000000000000000000000000001120403456000000000000000000000000000000000011204034560000000000000000000000000000000000112040345600000000000000000000000000000000001120403456000000000000000000000000000000314511204034560000000000000000000000000000000000112040345600000000000000000000000000000000001120403456000000000000000000000000000000000011204034560000000000000000000000000000000000112040345610571984491016887194000000000000001093664768108727550500000000000000000000000011204034560000000000000000000000000000000000112040345600000000000000000000000000000000001120403456000000000000000000000000000000000011204034560000000000000000000000000000000000)
 (.leaf 11204034560000000000000000000000000000000000112040345600000000000000000000000000000000001120403456000000000000000000000000000000000011204034560000000000000000000000000000000000112040345600000000000000000000000000000000001120403456000000000000000000000000000000000011204034561059588934000000000000000000003146112040345600000000000000000000000000000000001120403456000000000000000000000000000000000011204034560000000000000000000000000000003147112040345600000000000000000000000000000000001120403456000000000000000000000000000000000011204034560000000000000000000000000000000000112040345610528165080991775058000000000000001120403456000000000000000000000000000000000011204034560000000000000000000010429962620000)))
 (.node 2 (.node 1 (.leaf 11204034560000000000000000000000000000000000112040345600000000000000000000000000000000001120403456000000000000000000000000000000000011204034560000000000107992968100000000000000112040345610775897251040590045000000000000001120403456107440415900000000000000000000000011204034561080386419103229539000000000000000112040345600000000000000000000000000000000001120403456000000000000000000000000000000000011204034560000000000000000000000000000000000112040345600000000000000000000000000000000001120403456108226857310488880560000000000000011204034561102417702000000000000000000000000112040345600000000000000000000000000000000001120403456000000000000000000000000000000000011204034560000000000000000000000000000000000)
 (.leaf 11204034560000000000000000000010441226040000112040345610684466241084452399104226885000001120403456000000000000000000000000000000000011204034560000000000000000000000000000000000112040345600000000000000000000000000000000001120403456000000000000000000000000000000000011204034560000000000000000000000000000000000112040345600000000000000000000000000000000001120403456000000000000000000000000000000000011204034560000000000000000000000000000000000111568486400000000000000000000107621190400001120403456000000000010760633711054521452314811204034560000000000104291201210675204860000111122841600000000000000000000106861365600001120403456000000000000000000001009644637314911185684480000000000000000000000000000000000))
 (.node 1 (.leaf 11036262401103522052000000000010451348470000110362624000000000000000000000000000000000001112014848000000000000000000000000000000000010905190400000000000000000000000000000000000109366476800000000000000000000000000000000001119354880000000000000000000001029209266000011128012800000000000000000000010344826550000104648958500000000000000000000000000000000001077936128000000000000000000000000000000000011004805120000000000107038889700000000000000111751987200000000000000000000000000000000001120403456000000000000000000000000000000000011204034561074869165105264950810318029030000107793612800000000000000000000000000000000001074635630000000000000000000000000000000000011193548801085332601102932917810593861980000)
 (.leaf 11204034560000000000000000000010419992140000112040345600000000000000000000104946216200001120403456000000000000000000000000000000000011204034560000000000000000000000000000000000112040345600000000000000000000000000000000001120403456000000000000000000000000000000000011204034560000000000000000000000000000000000112040345610880650930000000000000000000000001120403456103946033500000000001008562463000011204034560000000000000000000000000000000000112040345610733467370000000000000000000000001120403456000000000010345636690000000000000011204034560000000000000000000000000000000000112040345600000000000000000000000000000000001120403456000000000000000000000000000000000011204034560000000000000000000000000000000000))))
 (.node 4 (.node 2 (.node 1 (.leaf 11204034560000000000000000000000000000000000112040345600000000000000000000000000000000001120403456000000000000000000000000000000000011204034560000000000000000000000000000000000112040345600000000000000000000000000000031501120403456000000000010547735040000000000000011204034560000000000000000000000000000000000112040345600000000000000000000000000000031511120403456000000000000000000000000000000315211204034560000000000000000000000000000000000112040345610807298701025007367103596664100001120403456109629559300000000000000000000000011204034560000000000000000000000000000000000112040345600000000000000000000000000000000001120403456104180438010541359690000000000000011204034560000000000000000000000000000000000)
 (.leaf 11204034560000000000000000000000000000000000112040345610168941740000000000000000000000001120403456000000000011063415801041555422000011204034561083612923110730731800000000000000112040345600000000000000000000000000000000001120403456000000000000000000000000000000000011204034560000000000106792600200000000000000112040345600000000001085461339000000000000001120403456103149088900000000000000000000000011204034560000000000000000000000000000000000112040345600000000000000000000000000000000001120403456000000000000000000000000000000000011204034560000000000000000000000000000000000112040345600000000000990486567000000000000001120403456000000000010863629040000000000000011204034560000000000000000000000000000000000))
 (.node 1 (.leaf 11204034560000000000000000000000000000000000112040345610767478521041093362104868748431531120403456000000000000000000000000000000000011204034560000000000000000000000000000000000112040345600000000000000000000000000000000001120403456000000000000000000000000000000000011204034560000000000000000000000000000000000112040345600000000000000000000000000000000001120403456000000000000000000000000000000000011204034560000000000000000000000000000000000110362624000000000000000000000000000000000001049370603000000000000000000000000000000000010779361280000000000000000000010334424570000111568486400000000001049794026105972156900001113587712000000000010906674140000000000000010779361280000000000106135520500000000000000)
 (.leaf 11204034560000000000107588846910630453443154112040345600000000000000000000107468606631551107558400000000000000000000001060620627000011148984320000000000000000000010700398570000112040345600000000000000000000097360314500001120403456000000000000000000000000000000000010905190400000000000000000000010317340790000110205337600000000000000000000000000000000001120403456000000000000000000000000000000000011204034560000000000000000000010426041930000112040345600000000000000000000000000000000001116733440108469138600000000001047015064000010968104960000000000000000000000000000000000112001024000000000000000000000000000000000001116078080000000000010577699140000000000000011120148480000000000000000000000000000000000)))
 (.node 2 (.node 1 (.leaf 11204034560000000000000000000000000000000000111961702410987783801085917259000000000000001120403456103541219400000000000000000000000011204034560000000000000000000010314477920000112040345610286564790000000000000000000000001120403456000000000000000000000000000000000011204034560000000000000000000000000000000000112040345611181106361099690305000000000000001120403456107264100410501396370000000000000011204034561072433973000000000000000000003156112040345600000000000000000000000000000000001120403456000000000000000000000000000000000011204034560000000000000000000000000000000000112040345600000000000000000000000000000000001120403456000000000000000000000000000000000011051991041102978212000000000000000000000000)
 (.leaf 11204034561051807225105616936800000000000000112040345600000000000000000000000000000000001120403456000000000000000000000000000000000011204034560000000000000000000000000000000000112040345600000000000000000000000000000000001120403456000000000000000000000000000000000011204034560000000000000000000000000000000000112040345600000000000000000000000000000000001120403456000000000000000000000000000000000011204034561082311913105795446400000000003157112040345600000000000000000000000000000000001120403456000000000000000000000000000000315811204034560000000000000000000000000000003159112040345600000000000000000000000000000000001120403456000000000000000000000000000000000011204034560000000000000000000000000000000000))
 (.node 1 (.leaf 11204034561055639409000000000000000000000000112040345600000000000000000000000000000000001120403456000000000000000000000000000000000011204034560000000000000000000000000000000000112040345600000000000000000000000000000000001120403456000000000000000000000000000000000011204034561065190410108415376400000000000000112040345610947397361066593052000000000000001120403456108667219400000000000000000000000011204034561090763232000000000000000000000000112040345610546537481083937548000000000000001120403456105746690100000000000000000000000011204034560000000000000000000000000000000000112040345600000000000000000000000000000000001120403456000000000000000000000000000000000011204034560000000000110166870600000000000000)
 (.leaf 11204034560000000000109286072010687695400000112040345611034304651049304131106130913700001120403456108747678100000000000000000000000011204034560000000000000000000000000000003160112040345600000000000000000000000000000000001120403456000000000000000000000000000000000011204034560000000000000000000000000000000000112040345600000000000000000000000000000031611120403456000000000010612897741066220037316211204034560000000000000000000010071833870000112040345600000000000000000000000000000000001120403456000000000000000000000000000000000011204034560000000000000000000000000000000000112040345600000000000000000000000000000000001120403456000000000000000000000000000000000011204034560000000000000000000000000000000000)))))
 (.node 8 (.node 4 (.node 2 (.node 1 (.leaf 11204034560000000000000000000000000000000000112040345600000000000000000000000000000000001120403456000000000000000000000000000000000011204034560000000000000000000010595886030000112040345610918341471016887194105663218131631093664768000000000000000000000000000000000010828535300000000000000000000000000000000000111673344000000000000000000000000000000000001120403456000000000000000000000000000000000011171266561094415930104713315910641229843164108632473600000000000000000000000000000000001114898432000000000000000000000000000000000011163402240000000000000000000000000000000000111856844800000000000000000000104694190900001112014848000000000000000000001062724867000011200102400000000000000000000010513593103165)
 (.leaf 11204034561069186063104063031100000000000000111961702410536633550000000000000000000000001086300346000000000000000000001011171775000010089817700000000000000000000000000000000000111280128000000000000000000000000000000000001105199104101624563400000000000000000000000010779361280000000000000000000000000000000000111673344000000000000000000000000000000000001120403456000000000000000000000000000000000011204034561062791989000000000000000000000000112040345610574839470000000000103432902631661120403456000000000000000000000000000000000011204034561117321489110070564110647429960000112040345610997022860000000000000000000000001120403456108494934210411738920000000000000011204034560000000000000000000000000000000000))
 (.node 1 (.leaf 11204034560000000000000000000000000000003167112040345600000000000000000000000000000000001120403456000000000000000000000000000000000011204034561070949776000000000000000000000000112001024010996075811091287751104723659200001083613097000000000000000000000000000000000010774765160000000000000000000010229207590000112040345600000000000000000000000000000000001120403456000000000000000000000000000000316811204034560000000000000000000000000000000000112040345600000000000000000000000000000000001120403456000000000000000000000000000000000011204034560000000000000000000000000000000000112040345600000000000000000000000000000000001120403456106900052400000000000000000000000011204034561077305707000000000000000000000000)
 (.leaf 11204034560000000000000000000000000000003169112040345600000000000000000000000000000000001120403456000000000000000000000000000000000011204034561088915931000000000000000000000000112040345600000000000000000000000000000000001120403456000000000000000000000000000000000011204034560000000000000000000000000000000000112040345600000000000000000000000000000000001120403456000000000000000000000000000000000011204034560000000000000000000000000000000000112040345600000000000000000000000000000000001120403456000000000000000000000000000000000011204034560000000000000000000000000000000000112040345600000000000000000000000000000000001120403456000000000000000000000000000000000011204034560000000000000000000000000000000000)))
 (.node 2 (.node 1 (.leaf 11204034560000000000103998606500000000000000112040345600000000000000000000000000000000001120403456000000000010662474421024651429000011204034560000000000000000000010647101990000112040345600000000000000000000000000000000001120403456106359568500000000000000000000000011204034561085336378000000000000000000000000112040345610741588641090977792000000000000001120403456000000000010785212330000000000000011204034560000000000105732867400000000000000112040345600000000000000000000000000000000001120403456000000000010016669040000000000000011204034560000000000000000000000000000000000112040345600000000000000000000000000000000001120403456000000000000000000000000000000000011204034560000000000107329471100000000000000)
 (.leaf 11204034561094547907000000000000000000000000112040345610577967910000000000000000000000001120403456000000000000000000000000000000000011204034560000000000000000000000000000000000112040345600000000001050307409000000000031701120403456000000000010589728411076925146317111204034560000000000000000000010533221603172112040345600000000000000000000000000000031731120403456000000000000000000000000000000000011204034560000000000000000000000000000000000112040345600000000000000000000000000000000001120403456000000000000000000000000000000000011204034560000000000000000000000000000000000112040345600000000000000000000000000000000001120403456000000000000000000000000000000000011204034560000000000000000000000000000000000))
 (.node 1 (.leaf 11193548800000000000000000000000000000000000109051904000000000000000000000000000000000001120403456000000000000000000000000000000000011204034560000000000000000000000000000003174112040345600000000000000000000000000000031751102053376000000000000000000000000000000000010936647680000000000000000000000000000000000108632473600000000000000000000000000000000001113587712000000000000000000000000000000000010863247360000000000000000000000000000000000112040345600000000000000000000000000000000001120403456000000000010328456820000000000000010751558080000000000000000000000000000000000108656894900000000000000000000000000000000001032949272000000000000000000000000000000000010089817700000000000000000000000000000000000)
 (.leaf 10773463670000000000000000000000000000000000102825863000000000000000000000000000000000001057233798000000000000000000000000000000000010590246820000000000000000000000000000000000109051904000000000000000000000000000000000001118961664108398326000000000000000000000000011204034560000000000000000000000000000000000112040345600000000000000000000104682636331761120403456000000000000000000000000000000000011204034560000000000000000000010278334360000112040345600000000000000000000000000000000001120403456108341569700000000000000000000000011204034560000000000000000000000000000000000109366476810874115680000000000000000000000001120403456000000000000000000000000000000000011204034560000000000000000000000000000000000))))
 (.node 4 (.node 2 (.node 1 (.leaf 11204034560000000000000000000000000000000000112040345600000000000000000000000000000000001120403456000000000000000000001030593191317711204034560000000000000000000010611180490000112040345610509473591063839911000000000000001120403456000000000000000000000000000000000011204034560000000000000000000000000000000000112040345600000000000000000000000000000000001120403456000000000000000000000000000000317811204034560000000000000000000000000000000000112040345600000000000000000000000000000000001120403456102263493410624792791025578589317911204034561072189688000000000000000000000000112040345610486241510000000000000000000000001120403456101690598510448313250000000000000011204034560000000000000000000000000000000000)
 (.leaf 11204034560000000000000000000000000000000000112040345600000000000000000000000000000000001120403456000000000000000000000000000000000011204034560000000000000000000000000000000000112040345600000000000000000000000000000000001120403456000000000000000000000000000000000011204034560000000000105008930500000000000000112040345610740097140000000000000000000000001120403456000000000010960859300000000000000011204034560000000000109861687800000000000000112040345610802474911065484917000000000000001120403456000000000000000000000000000000000011204034561086310261107922000410519183150000112040345600000000000000000000000000000000001120403456000000000010856622460000000000000011204034560000000000108500646600000000000000))
 (.node 1 (.leaf 11204034560000000000000000000000000000000000112040345600000000000000000000000000000000001120403456000000000000000000000000000000318011204034560000000000000000000000000000000000112040345600000000000000000000000000000000001120403456000000000000000000000000000000000011204034560000000000000000000000000000000000112040345600000000000000000000000000000000001120403456000000000000000000000000000000000011204034560000000000000000000000000000000000112040345600000000000000000000000000000000001120403456000000000000000000001033343701318111204034560000000000107530420200000000000000111358771200000000001060788136104904414500001096810496000000000000000000000000000000000011075584000000000000000000000010417703390000)
 (.leaf 11200102400000000000000000000010502610750000111961702400000000000000000000103855911500001112014848000000000010172630040000000000000011135877120000000000000000000010428013260000107592022000000000000000000000101338532600001093664768000000000000000000001026065468000011067719680000000000000000000000000000000000111935488010601420950000000000000000000000001118961664000000000000000000000000000000000011083448320000000000000000000000000000000000105521434200000000000000000000000000000000001094189371000000000000000000000000000000000011167334400000000000000000000000000000000000112040345600000000000000000000000000000000001120403456000000000000000000000000000000318211204034561071156338000000000010439151850000)))
 (.node 2 (.node 1 (.leaf 11204034560000000000000000000000000000000000112040345600000000000000000000105823309100001120403456000000000000000000000000000000000011204034560000000000000000000000000000000000112040345610515023160000000000000000000000001120403456000000000000000000000000000000000011204034560000000000000000000000000000000000112040345600000000000000000000000000000000001120403456107586270300000000000000000000000011204034561066497238000000000000000000000000111896166400000000000000000000106973689200001120403456000000000000000000000000000000000011204034560000000000000000000000000000000000112040345600000000000000000000000000000000001120403456000000000000000000000000000000000011204034560000000000000000000000000000000000)
 (.leaf 11204034560000000000000000000000000000000000112040345600000000000000000000000000000031831120403456108729926810661560061037212714318411204034560000000000000000000000000000000000112040345600000000000000000000000000000000001120403456107584398000000000001047919376000011204034560000000000000000000000000000000000112040345600000000000000000000102687636400001120403456000000000010168871941042245755000011204034560000000000000000000000000000000000112040345600000000001074076110000000000031851120403456000000000000000000000000000000000011204034561057409909000000000000000000003186112040345600000000000000000000000000000000001120403456104966279410312619130000000000000011204034560000000000000000000000000000000000))
 (.node 1 (.leaf 11204034560000000000000000000000000000000000112040345600000000000000000000000000000000001120403456000000000000000000000000000000000011204034560000000000000000000000000000000000112040345600000000000000000000000000000000001120403456000000000010177461880000000000000011204034560000000000106845029000000000000000112040345610403418770000000000000000000000001120403456106251531610892762680000000000000011204034560000000000000000000000000000000000112040345600000000000000000000000000000000001120403456000000000000000000001058030514000011204034560000000000000000000000000000000000112040345600000000000000000000000000000000001120403456000000000000000000000000000000000011204034560000000000000000000000000000000000)
 (.leaf 11204034560000000000000000000000000000000000112040345600000000000000000000000000000031871120403456000000000000000000000000000000000011204034560000000000000000000000000000000000112040345600000000000000000000000000000000001120403456000000000000000000000000000000000011204034560000000000000000000000000000000000112040345600000000000000000000000000000000001120403456000000000000000000000000000000000011185684480000000000000000000010579196760000107793612800000000001067714609000000000000001093664768000000000000000000000000000000000011204034560000000000000000000010370399093188111935488000000000001096329200104797843200001112801280000000000010610062391067404596000011204034560000000000104872699500000000000000)))))))
 (.node 32 (.node 16 (.node 8 (.node 4 (.node 2 (.node 1 (.leaf 10779361280000000000000000000010406655450000108632473600000000000000000000000000000000001077936128000000000000000000000000000000000010905190400000000000000000000000000000000000111358771200000000000000000000000000000000001120403456000000000000000000001048243438000011196170240000000000000000000000000000000000110991769600000000000000000000000000000000001034410822000000000000000000000000000000000010570566310000000000000000000000000000000000111568486400000000000000000000000000000000001120403456000000000000000000000000000000000011204034560000000000000000000000000000000000112040345600000000000000000000000000000000001120403456000000000000000000001026720181000011204034560000000000103559714600000000000000)
 (.leaf 11204034561091502384106093745310190038660000112040345610966229080000000000000000000000001120403456107306977110987054830000000000000011204034561070017945105887050010412106000000112040345600000000000000000000000000000000001120403456000000000000000000000000000000000011204034560000000000000000000000000000000000112040345600000000000000000000000000000000001120403456000000000000000000000000000000000011204034560000000000000000000000000000000000112040345600000000000000000000000000000000001120403456000000000000000000000000000000000011204034560000000000000000000000000000000000112040345610831836110000000000000000000000001118175232000000000000000000001039311985000011204034560000000000000000000000000000000000))
 (.node 1 (.leaf 11204034560000000000000000000000000000000000112040345600000000000000000000000000000000001120403456000000000000000000000000000000000011193548800000000000107472287210339870923189111280128010626444341072164766107391760931901008981770000000000000000000000000000000000011204034561085067940000000000000000000000000112040345600000000000000000000000000000000001120403456106329342710640563371043776033000011204034560000000000000000000000000000000000112040345610450460070000000000000000000031911120403456105900272100000000000000000000319211204034560000000000104939137300000000000000112040345600000000000000000000000000000000001120403456000000000000000000000000000000000011204034560000000000000000000000000000000000)
 (.leaf 11204034560000000000000000000000000000000000112040345600000000000000000000000000000000001120403456000000000000000000000000000000000011204034560000000000000000000000000000000000112040345600000000000000000000000000000000001120403456000000000000000000000000000000000011204034560000000000000000000000000000000000112040345600000000000000000000000000000000001120403456000000000000000000000000000000000011204034560000000000108819120100000000000000112040345610941126471056088837000000000000001120403456107528018100000000000000000000000011204034560000000000000000000000000000000000112040345600000000001058162501000000000000001120403456000000000011023456670000000000000011204034560000000000000000000000000000000000)))
 (.node 2 (.node 1 (.leaf 11204034560000000000000000000000000000000000112040345610711223300000000000000000000000001120403456000000000000000000000000000000000011204034560000000000000000000000000000003193112040345610606942840000000000000000000031941120403456000000000000000000000000000000000011204034560000000000000000000000000000000000112040345600000000000000000000000000000000001120403456000000000000000000000000000000000010778071950000000000000000000000000000000000108487503800000000000000000000103766557100001099431936000000000000000000001034458117000011204034560000000000000000000000000000003195112040345600000000000000000000000000000031961120403456000000000000000000000000000000000011067719680000000000000000000010497416390000)
 (.leaf 11200102400000000000000000000000000000000000112040345600000000000000000000000000000000001086324736000000000000000000001069230977000010863247360000000000000000000000000000000000109681049600000000000000000000102724640700001090519040000000000000000000000000000000000011099176960000000000000000000000000000000000109681049600000000000000000000000000000000001030273077000000000000000000000000000000000010567579130000000000000000000000000000000000111673344000000000000000000000000000000000001120403456000000000000000000000000000000000011204034560000000000000000000000000000000000112040345600000000000000000000000000000000001120403456000000000000000000001068718877319711204034560000000000000000000000000000003198))
 (.node 1 (.leaf 11204034560000000000000000000010352083000000112040345610387857561078238118000000000000001120403456110006260710823307101032722774000011204034560000000000000000000000000000000000112040345600000000000000000000000000000000001120403456000000000000000000000000000000000011204034561044618657000000000000000000000000112040345600000000000000000000000000000000001120403456000000000000000000000000000000000011204034560000000000000000000000000000000000112040345600000000000000000000000000000000001120403456107472791300000000000000000000000011204034560000000000000000000000000000000000112040345600000000000000000000000000000000001120403456000000000000000000000000000000000011171266560000000000000000000010518459383199)
 (.leaf 10089817700000000000000000000000000000000000100898177000000000000000000000000000000000001120403456110819277100000000000000000000000011204034561053149670000000000000000000000000112040345600000000000000000000000000000000001120403456000000000000000000000000000000000011204034561070635179105957682100000000000000112040345610745874210000000000000000000000001120403456000000000000000000000000000000000011204034560000000000103361072300000000000000112040345600000000000000000000000000000000001120403456000000000000000000000000000000000011204034560000000000000000000000000000000000112040345600000000001065698827000000000000001120403456000000000010807471510000000000000011204034560000000000108848920700000000000000))))
 (.node 4 (.node 2 (.node 1 (.leaf 11204034560000000000000000000000000000000000112040345600000000000000000000000000000000001120403456104196235400000000000000000000000011204034560000000000000000000000000000000000112040345600000000000000000000000000000000001120403456000000000000000000000000000000000011204034560000000000108612592600000000000000112040345600000000001095995333101666836900001120403456000000000010876119680000000000000011204034560000000000104511989410483154410000112040345600000000000000000000000000000000001120403456000000000000000000000000000000000011204034560000000000000000000000000000000000112040345600000000000000000000000000000000001120403456000000000000000000000000000000000011204034561058206424000000000000000000000000)
 (.leaf 11204034560000000000000000000000000000000000111856844800000000000000000000000000000000001077936128000000000000000000000000000000000011148984320000000000000000000000000000000000111961702400000000000000000000104291475400001112014848000000000000000000001054055476000011104419840000000000000000000010487418100000112040345600000000000000000000105088025132001120403456000000000000000000000000000000000011036262400000000000000000000000000000000000108632473600000000000000000000000000000000001093664768000000000000000000000000000000000010462830910000000000000000000000000000000000107573135000000000000000000000000000000000001065887403000000000000000000000000000000000010089817700000000000000000000000000000000000))
 (.node 1 (.leaf 11141120000000000000000000000010480842010000112040345600000000000000000000000000000000001120403456000000000000000000001024916224000011204034560000000000000000000010277061053201112040345600000000001036053486104227710600001120403456109691715100000000000000000000000011204034561051866985110213731500000000000000112040345600000000000000000000000000000000001120403456000000000000000000000000000000000011204034560000000000000000000000000000000000112040345600000000000000000000000000000000001120403456000000000000000000000000000000000011204034560000000000000000000000000000000000112040345600000000000000000000000000000000001120403456000000000000000000000000000000000011204034560000000000000000000000000000000000)
 (.leaf 11204034560000000000000000000000000000000000112040345600000000000000000000000000000000001120403456000000000000000000000000000000320211204034561082921669109005032710261269623203109328004500000000000000000000000000000000001120010240000000000000000000001028532225000010671867980000000000000000000000000000000000100898177000000000000000000000000000000000001119617024110925625700000000000000000000000011204034561034687015000000000010435167870000112040345600000000001021343223000000000000001120403456000000000000000000000000000000000011204034560000000000097843381500000000000000112040345600000000000000000000000000000000001120403456106302569610441401040000000000000011204034560000000000000000000000000000000000)))
 (.node 2 (.node 1 (.leaf 11204034561060469519109150585500000000000000112040345600000000001051971709000000000000001120403456000000000010716631270000000000000011204034561049905326000000000000000000000000112040345600000000000000000000000000000000001120403456000000000000000000000000000000000011204034561077008075000000000000000000000000112040345600000000000000000000000000000000001120403456000000000000000000000000000000000011204034560000000000000000000000000000000000112040345600000000000000000000000000000000001120403456000000000000000000000000000000000011204034560000000000000000000000000000000000112040345610234619840000000000000000000000001120403456000000000010666559670000000000000011204034561071454444099951942000000000003204)
 (.leaf 11204034560000000000000000000000000000003205112040345600000000000000000000000000000000001120403456000000000000000000000000000000000011204034560000000000000000000000000000000000112040345600000000000000000000000000000000001120403456000000000000000000000000000000000011204034560000000000000000000000000000000000112040345600000000000000000000000000000000001103626240000000000000000000000000000000000010994319360000000000000000000000000000000000111935488000000000000000000000000000000000001120403456000000000000000000000000000000000011204034560000000000000000000010723716010000111817523200000000000000000000000000000000001077936128000000000000000000000000000000000011181752320000000000000000000010508901293206))
 (.node 1 (.leaf 11204034560000000000000000000000000000000000112040345600000000000000000000000000000000001120403456000000000000000000000000000000320711179130880000000000000000000010321311350000111791308810992122381082684919103276605200001120403456000000000000000000000000000000000011204034560000000000000000000000000000000000112040345600000000000000000000000000000000001120403456000000000000000000000000000000000011128012800000000000000000000010414059790000108632473600000000000000000000000000000000001120403456000000000000000000000000000000000011204034560000000000000000000000000000000000112040345600000000000000000000102497811700001120403456000000000000000000000000000000000011204034561011590963000000000000000000000000)
 (.leaf 11204034561102690395000000000010343859570000112040345600000000001095117885000000000000001120403456109045912400000000000000000000000011204034560000000000000000000000000000000000112040345600000000000000000000000000000000001120403456000000000000000000000000000000000011204034560000000000000000000000000000000000112040345600000000000000000000101673100800001120403456000000000000000000000000000000000011204034560000000000000000000000000000000000112040345600000000000000000000000000000000001120403456000000000000000000000000000000000011204034561066369320000000000000000000000000112040345610954886200000000000000000000000001120403456000000000000000000000000000000000011204034560000000000000000000000000000000000)))))
 (.node 8 (.node 4 (.node 2 (.node 1 (.leaf 11204034561071691229105798634000000000000000112040345610859047081059420792000000000000001099431936109901213100000000001055881123000011004805121067080573000000000010456089080000112040345610580274950000000000000000000000001120403456000000000000000000000000000000000011204034561093742960107090228000000000000000112040345610834975781077822043000000000000001120403456102538827700000000000000000000000011204034560000000000000000000000000000000000112040345610787365191057548455000000000000001120403456108045469410502973420000000000000011204034560000000000000000000000000000000000112040345600000000000000000000000000000000001120403456000000000000000000000000000000000011204034560000000000000000000000000000000000)
 (.leaf 11204034560000000000000000000000000000000000112040345600000000000000000000000000000000001120403456000000000000000000000000000000000011204034560000000000000000000000000000000000112040345600000000000000000000000000000000001120403456000000000000000000000000000000000011204034560000000000000000000000000000000000112040345600000000000000000000000000000000001120403456000000000000000000000000000000320811204034560000000000103950288200000000000000112040345600000000000000000000000000000000001120403456000000000000000000000000000000000011204034560000000000000000000000000000000000112040345600000000000000000000000000000000001120403456000000000000000000000000000000000011204034560000000000000000000000000000000000))
 (.node 1 (.leaf 11204034560000000000000000000000000000000000112040345600000000000000000000000000000000001120403456000000000000000000000000000000000011204034560000000000000000000000000000000000111201484800000000000000000000000000000000001027191760000000000000000000000000000000000010306369150000000000000000000000000000000000109943193600000000000000000000000000000000001120403456000000000000000000000000000000000011204034560000000000000000000000000000000000112040345600000000000000000000000000000000001116733440000000000000000000001070387542000011204034560000000000000000000000000000000000112040345600000000000000000000000000000000001118961664000000000000000000000000000000000010994319360000000000000000000000000000000000)
 (.leaf 11036262400000000000000000000000000000000000112040345610824041230000000000000000000000001120403456000000000000000000000000000000000011204034560000000000000000000000000000000000112040345600000000000000000000000000000000001119617024106775750800000000001054193544000010863247360000000000000000000000000000000000110362624000000000000000000000000000000000001068328907000000000000000000000000000000000011204034560000000000000000000000000000003209112040345600000000000000000000000000000000001120403456000000000000000000001035568696000011204034561043890124109333111100000000000000112040345610992716420000000000000000000000001120403456000000000000000000000000000000000011204034560000000000000000000010197631550000)))
 (.node 2 (.node 1 (.leaf 11204034560000000000000000000000000000000000112040345600000000000000000000000000000000001120403456000000000000000000000000000000000011204034560000000000000000000000000000000000112040345610611662600000000000000000000000001120403456000000000000000000000000000000000011204034560000000000000000000000000000000000112040345600000000000000000000000000000000001120403456103497021500000000000000000000000011204034561057063677107114806600000000000000112040345610659797781069129767000000000000001117519872111565878110420194641057402275000011067719680000000000000000000000000000000000109116314900000000000000000000106340024200001120403456107067414410750349280000000000000011204034561051036949101688719400000000000000)
 (.leaf 11204034560000000000000000000000000000000000112040345600000000000000000000000000000000001120403456103670927410388720580000000000000011204034561061556599000000000000000000000000112040345600000000001080662426000000000000001120403456000000000000000000000000000000000011204034560000000000000000000000000000000000112040345610430844150000000000000000000000001120403456000000000000000000000000000000000011204034560000000000000000000000000000000000112040345600000000000000000000000000000000001120403456000000000000000000000000000000000011204034560000000000000000000000000000000000112040345600000000000000000000000000000000001120403456000000000000000000000000000000000011204034560000000000000000000000000000000000))
 (.node 1 (.leaf 11204034560000000000000000000000000000003210112040345600000000000000000000000000000000001120403456000000000000000000000000000000000011204034560000000000000000000000000000000000112040345600000000000000000000000000000000001120403456107614630900000000000000000000000011204034560000000000000000000000000000000000112040345600000000000000000000000000000000001120403456000000000000000000000000000000000011204034560000000000000000000000000000000000112040345600000000000000000000000000000000001114112000000000000000000000000000000000000011204034560000000000000000000000000000000000112040345600000000000000000000000000000000001086324736000000000000000000000000000000000011200102401079104871110283834010157807020000)
 (.leaf 11204034560000000000000000000000000000000000112040345610492924880000000000102181217900001117126656110643023400000000000000000000000011099176960000000000000000000010369208090000109943193600000000000000000000000000000000001119354880000000000000000000000000000000000011204034560000000000000000000000000000000000112040345600000000000000000000000000000000001086324736000000000000000000000000000000000010863247360000000000000000000000000000000000100898177000000000000000000000000000000000001008981770000000000000000000000000000000000011204034560000000000000000000000000000000000112040345600000000000000000000000000000000001120403456000000000000000000000000000000000011204034560000000000000000000000000000000000))))
 (.node 4 (.node 2 (.node 1 (.leaf 11204034561042469496108467616510284212340000112040345610962192730000000000000000000000001120403456107872452710880242680000000000000011204034561087895608109315096600000000000000112040345600000000001086930813097250724900001120403456106822304300000000001070089535000011204034560000000000000000000000000000000000112040345610603515250000000000000000000000001120403456000000000000000000000000000000000011204034560000000000000000000000000000000000112040345600000000001092093477000000000000001120403456000000000000000000000000000000000010779361280000000000000000000000000000000000110677196800000000000000000000000000000000001120403456000000000000000000000000000000000011204034560000000000000000000000000000000000)
 (.leaf 11204034560000000000000000000000000000000000112040345600000000001058420870000000000000001120403456000000000010567431490000000000000011204034561025263991103268462100000000000000112040345600000000000000000000000000000000001120403456109971571700000000000000000000000011204034560000000000000000000000000000000000112040345600000000000000000000000000000000001120403456106905703000000000000000000000000011204034560000000000100188165200000000000000112040345600000000000000000000000000000000001120403456000000000000000000001012650765000011204034560000000000000000000000000000000000112040345610961357481069740458104984517900001120403456108786631000000000000000000000000011204034560000000000000000000000000000000000))
 (.node 1 (.leaf 11204034560000000000000000000000000000000000112040345600000000000000000000000000000000001120403456000000000000000000000000000000000011204034560000000000000000000000000000000000112040345600000000000000000000000000000000001120403456000000000000000000000000000000000011204034560000000000000000000000000000000000112040345600000000000000000000000000000000001120403456000000000000000000000000000000000011204034560000000000000000000000000000000000112040345600000000000000000000000000000000001120403456000000000000000000000000000000000011204034560000000000000000000000000000000000112040345600000000000000000000000000000000001120403456000000000000000000000000000000000011167334400000000000000000000000000000000000)
 (.leaf 11204034560000000000000000000010256165110000112040345600000000000000000000000000000000001118961664000000000000000000000000000000000011120148480000000000108616409410465137470000112040345600000000000000000000103318175932111077936128000000000000000000000000000000000010994319361099257174000000000000000000000000112040345600000000000000000000000000000000001120403456000000000000000000000000000000000011204034560000000000000000000000000000000000112040345600000000000000000000000000000000001061655887000000000000000000000000000000000010219328150000000000000000000000000000000000112040345600000000000000000000000000000000001120403456000000000000000000000000000000321211204034560000000000000000000000000000000000)))
 (.node 2 (.node 1 (.leaf 11204034561050532156000000000010215976510000112040345610667317330000000000000000000000001120403456000000000000000000001061895272000011204034560000000000000000000010460964790000112040345600000000000000000000000000000000001120403456000000000000000000000000000000000011204034560000000000000000000000000000000000112040345609969247230000000000000000000000001120403456000000000000000000000000000000000011204034560000000000000000000000000000000000112040345600000000000000000000000000000000001120403456000000000000000000000000000000000011204034560000000000000000000000000000000000112040345600000000000000000000000000000000001120403456105730939710449051450000000000000011204034560000000000104880752600000000000000)
 (.leaf 11204034560000000000104875048300000000000000112040345600000000000000000000000000000000001120403456109265334000000000000000000000000011204034560000000000000000000000000000000000112040345600000000000000000000000000000000001120403456000000000000000000000000000000000011204034560000000000000000000000000000000000112040345600000000001067062814000000000000001120403456000000000009876814170000000000000011204034560000000000105784037900000000000000112040345610708281751070112073000000000000001120403456110893136210216653460000000000000011204034561103167688000000000000000000000000112040345610989954470000000000000000000000001120403456000000000010945759810000000000000011204034560000000000106734802700000000000000))
 (.node 1 (.leaf 11204034560000000000000000000000000000000000112040345600000000000000000000104134774800001120403456000000000000000000000000000000000011204034560000000000000000000000000000000000112040345600000000000000000000000000000000001120403456000000000000000000001015097744000011204034560000000000000000000010190531580000112040345600000000000000000000000000000000001120403456000000000000000000000000000000000011204034560936490775000000000010301249380000112040345600000000000000000000000000000000001120403456105699363300000000000000000000000011204034560000000000000000000000000000000000112040345600000000000000000000000000000000001120403456000000000000000000000000000000321311204034560000000000000000000000000000000000)
 (.leaf 11204034560000000000000000000000000000000000112040345600000000000000000000000000000000001120403456000000000010966521610000000000000011204034560000000000000000000000000000000000112040345600000000000000000000000000000000001120403456000000000000000000000000000000000011204034560000000000000000000000000000000000107793612800000000000000000000000000000000001105199104000000000010823449711027890713000011003254800000000000000000000010223531560000107793612800000000000000000000000000000000001120403456000000000000000000000000000000000011204034560000000000000000000000000000003214110205337600000000000000000000106372166800001120403456099618169400000000000000000000000011196170241103471524104316702610516042190000))))))
 (.node 16 (.node 8 (.node 4 (.node 2 (.node 1 (.leaf 11167334401116545961000000000000000000000000111935488011177022380000000000000000000000001120403456110588945700000000000000000000000011204034560000000000000000000000000000000000112040345600000000000000000000000000000032151120403456000000000000000000000000000000000010490682770000000000000000000000000000000000106163749900000000000000000000000000000000001120403456109364736309993046721058624824000011204034561024538142000000000000000000000000112040345600000000000000000000000000000000001120403456000000000000000000000000000000000011204034560000000000000000000010384436390000112040345600000000000000000000000000000000001120403456000000000000000000000000000000000011204034561059309912102704747600000000000000)
 (.leaf 11204034561099608509103002711010493531140000112040345600000000000000000000000000000000001120403456000000000000000000000000000000000011204034560000000000000000000000000000000000112040345600000000000000000000000000000000001120403456000000000000000000000000000000000011204034560000000000000000000000000000000000112040345610622172690000000000000000000000001120403456000000000000000000000000000000000011204034560000000000000000000000000000000000112040345600000000000000000000000000000000001120403456000000000000000000000000000000000011204034560000000000000000000000000000000000112040345600000000000000000000000000000000001120403456000000000000000000000000000000000011204034561078659381105321993300000000000000))
 (.node 1 (.leaf 11204034560000000000000000000000000000000000112040345600000000000000000000000000000000001120403456000000000000000000000000000000000011204034560000000000000000000000000000000000109366476810527885911093270980000000000000001120403456000000000010463949620000000000000011204034561086070880105849972300000000000000112040345600000000001054780214000000000000001120403456109245058610776173610000000000000011204034561108247626103979816100000000000000112040345611127578961018175685102479382700001120403456000000000000000000000000000000000011204034560000000000000000000000000000000000112040345600000000000000000000000000000000001120403456000000000000000000000000000000000011204034560000000000000000000000000000000000)
 (.leaf 11204034561064149367000000000000000000000000112040345600000000000000000000000000000000001120403456000000000000000000000000000000000011204034560000000000000000000000000000000000112040345600000000000000000000000000000000001120403456000000000000000000000000000000000011204034560000000000109051442600000000000000112040345600000000001074313508000000000000001120403456000000000000000000000000000000000011204034560000000000000000000000000000000000112040345600000000001072380353106144666832161120403456000000000000000000000000000000000011204034560000000000000000000000000000000000112040345600000000001077814493000000000000001120403456000000000000000000000000000000000011204034560000000000107513433300000000000000)))
 (.node 2 (.node 1 (.leaf 11204034560000000000000000000000000000000000112040345600000000000000000000000000000000001112801280103947845400000000000000000000000010959174240000000000000000000000000000000000111791308800000000001065885054101174262600001120403456000000000000000000000000000000321711204034560000000000000000000000000000003218110048051200000000000000000000000000000000001096810496000000000000000000001036017600000011135877120000000000000000000000000000000000112040345600000000000000000000000000000000001120403456000000000000000000000000000000321911204034560000000000000000000000000000000000108632473600000000000000000000000000000000001111228416000000000000000000000000000000000011036262400000000000000000000000000000000000)
 (.leaf 10771106450000000000000000000010771106450000109542532700000000000000000000104488914700001120403456000000000000000000001023555574000011204034560000000000000000000000000000000000112040345600000000000000000000000000000000001120403456108740726100000000000000000000000011204034560000000000000000000000000000000000112040345610555461950000000000000000000000001120403456107419829000000000000000000000000011204034561074607419000000000000000000000000112040345600000000000000000000000000000000001120403456000000000000000000000000000000000011204034561068323077000000000000000000000000112040345600000000000000000000000000000000001120403456000000000000000000000000000000000011204034560000000000000000000000000000000000))
 (.node 1 (.leaf 11204034560000000000000000000000000000000000112040345600000000000000000000000000000000001120403456106681056000000000000000000000000011204034560000000000000000000000000000000000112040345600000000000000000000000000000000001120403456000000000000000000000000000000000011204034560000000000000000000000000000000000112040345600000000000000000000000000000000001120403456000000000000000000001047982379000011204034560000000000000000000000000000000000112040345600000000000000000000000000000000001120403456000000000000000000000000000000000011204034560000000000000000000000000000000000112040345610352950220000000000000000000000001116078080110924751310931492881082768926000010779361280000000000000000000000000000000000)
 (.leaf 11204034560000000000000000000000000000000000112040345600000000000000000000000000000000001120403456000000000000000000000000000000000011204034561108809512106621892000000000000000112040345600000000001068054348000000000000001120403456112040345600000000000000000000000011204034560000000000000000000000000000000000112040345600000000000000000000000000000000001120403456000000000000000000000000000000000011204034561043173267000000000000000000000000112040345610881587771094848925000000000032201120403456105713127300000000000000000000000011204034560000000000000000000000000000000000112040345600000000000000000000000000000000001120403456000000000000000000000000000000000011204034560000000000000000000000000000000000))))
 (.node 4 (.node 2 (.node 1 (.leaf 10936647681035332871000000000000000000000000107012130100000000000000000000000000000000001116078080000000000000000000001052743228000011204034560000000000000000000010436165690000112040345600000000000000000000000000000000001120403456105256438000000000001041444254000011120148481081885900109319490100000000000000110205337600000000000000000000103275966700001117913088000000000000000000000000000000000011200102400000000000000000000010576802120000110755840000000000000000000000105932570600001112801280102441009811075456341061717428000011163402240000000000108515431510329443660000111856844811027799431049780604105576497200001120403456000000000000000000000000000000000011204034560000000000000000000000000000000000)
 (.leaf 11204034560000000000000000000000000000000000112040345600000000000000000000000000000032211120403456000000000000000000000000000000000011204034560000000000000000000000000000000000112040345600000000000000000000000000000000001118568448000000000000000000001015982789000010936647680000000000000000000000000000000000109366476800000000000000000000000000000000001115684864000000000000000000001049704529000010620770120000000000000000000000000000000000103259495000000000000000000000000000000000001120403456000000000000000000000000000000000011204034560000000000000000000010697369140000112040345610483607150000000000000000000000001120403456000000000000000000000000000000000011204034560000000000000000000000000000000000))
 (.node 1 (.leaf 11204034560000000000000000000000000000000000112040345610711706320000000000000000000000001120403456000000000000000000000000000000000011204034560000000000000000000000000000000000112040345600000000000000000000000000000000001120403456000000000000000000000000000000000011204034560000000000000000000000000000000000112040345600000000000000000000000000000000001120403456000000000000000000000000000000000011204034560000000000000000000000000000000000112040345600000000000000000000000000000000001120403456000000000000000000000000000000000011204034560000000000000000000000000000000000112040345600000000000000000000000000000000001120403456000000000000000000000000000000000011204034560000000000000000000000000000000000)
 (.leaf 11204034560000000000000000000000000000000000112040345600000000000000000000000000000000001120403456000000000000000000000000000000000011204034560000000000000000000000000000000000112040345600000000000000000000000000000000001120403456110479632410705247930000000000000011204034560000000000104667681900000000000000112040345610756395701055525123000000000000001120403456109215220210666324790000000000000011204034561078844430108262703810365965760000112040345610861523001063509400000000000000001120403456106891693200000000000000000000000011204034561101204473106973878000000000000000112040345610858994440000000000000000000000001120403456108441950900000000000000000000000011204034561065190745106910627900000000000000)))
 (.node 2 (.node 1 (.leaf 11204034560000000000107522031610359681810000112040345600000000000000000000000000000000001120403456000000000000000000000000000000000011204034561098980346110418853900000000000000111489843211009840060000000000000000000000001077936128000000000000000000000000000000000011120148480000000000000000000000000000000000110834483200000000000000000000000000000000001120403456000000000000000000000000000000000011204034560000000000000000000010232118890000112040345610846569301088833769104956150100001120403456110381762110834830951081338718000011004805120000000000000000000010526337540000109051904000000000000000000000000000000000001108344832000000000000000000001060191155322210905190400000000000000000000000000000000000)
 (.leaf 11204034560000000000000000000000000000000000112040345610436142390000000000000000000032231120403456109790678610246315571059974173000011204034561073485904102965130010418933063224112040345600000000000000000000000000000000001120403456000000000000000000000000000000000011204034560000000000000000000000000000000000112040345600000000000000000000000000000000001120403456000000000000000000000000000000000011204034560000000000000000000000000000000000112040345600000000000000000000000000000000001120403456103422705100000000000000000000000011204034560000000000000000000010482066110000111961702400000000000000000000000000000000001106771968000000000000000000000000000000000011051991040000000000000000000000000000000000))
 (.node 1 (.leaf 10936647680000000000000000000000000000000000111791308800000000000000000000106832548400001099431936000000000000000000000000000000000010936647680000000000000000000010214001650000111817523200000000000000000000000000000000001116078080000000000000000000000000000000000011099176960000000000000000000000000000000000100898177000000000000000000000000000000000001041511114000000000000000000000000000000000010651747740000000000000000000000000000000000109051904000000000000000000000102989719600001120403456100458962900000000001047116794000011204034561067723048000000000010513387420000112040345600000000000000000000102826892100001120403456000000000000000000000000000000000011204034561060850899000000000000000000000000)
 (.leaf 11204034560000000000000000000010621418020000112040345600000000000000000000000000000000001120403456000000000000000000000000000000000011204034561069768551000000000000000000000000112040345600000000000000000000000000000000001120403456000000000000000000000000000000000011204034560000000000000000000000000000000000112040345600000000000000000000000000000000001120403456000000000000000000000000000000000011204034560000000000000000000000000000000000112040345600000000000000000000000000000000001120403456000000000000000000000000000000000011204034560000000000000000000000000000000000112040345600000000000000000000000000000000001120403456106115179800000000000000000000000011204034560000000000000000000000000000000000)))))
 (.node 8 (.node 4 (.node 2 (.node 1 (.leaf 11204034560000000000000000000000000000000000112040345600000000000000000000000000000000001120403456000000000000000000000000000000000011204034561113744066000000000000000000000000109366476800000000000000000000104302241300001117519872105469918100000000001054765432000011204034560000000000000000000000000000003225112040345600000000000000000000000000000000001120403456000000000010254905510000000000000011204034561074103100103350334900000000000000112040345611176544470000000000000000000000001120403456000000000000000000001014606496000011204034560000000000105473323800000000000000112040345600000000001071668160104749541600001120403456106679728110372346020000000000000011204034561053002937103002711000000000000000)
 (.leaf 11204034561037191250104558965600000000000000112040345600000000000000000000000000000000001120403456101414110010690140050000000000000011204034560000000000106953745400000000000000112040345610283128811079818112000000000000001120403456105023520010934510680000000000000011204034561086119762000000000000000000000000112040345610487076680000000000000000000000001120403456000000000000000000000000000000000011204034560000000000000000000010237829460000112040345600000000000000000000101985562500001120403456109912211500000000000000000000000011204034561098330941000000000000000000000000112040345600000000000000000000000000000000001110441984000000000000000000000000000000000010779361280000000000000000000000000000000000))
 (.node 1 (.leaf 11135877120000000000000000000000000000000000111961702400000000000000000000000000000000001120403456000000000000000000000000000000000011204034560000000000000000000000000000000000112040345600000000000000000000100019973400001119354880110800936610342818121060424481000010863247360000000000000000000000000000000000109051904000000000000000000000000000000000001090519040000000000000000000000000000000000011036262400000000000000000000000000000000000112040345600000000000000000000103779936800001120403456000000000000000000000000000000000011204034560000000000000000000000000000000000112040345600000000000000000000000000000000001120403456000000000000000000000000000000000011204034560000000000000000000000000000000000)
 (.leaf 11204034560000000000000000000000000000000000110834483200000000000000000000000000000000001112801280000000000000000000000000000000000011189616640000000000000000000000000000000000112040345600000000000000000000000000000000001120403456000000000000000000000000000000000011204034560000000000000000000000000000000000111817523200000000000000000000104883484800001116733440000000000000000000000000000000000011196170240000000000000000000010443910890000110677196800000000000000000000102825204600001090519040000000000000000000000000000000000011167334400000000000000000000000000000000000111673344000000000000000000000000000000000001041153961000000000000000000000000000000000010573791230000000000000000000000000000000000)))
 (.node 2 (.node 1 (.leaf 11200102401084047191106202293910686609060000112040345600000000000000000000105496848500001120403456109694319100000000001037565359000011204034561073636455107166564400000000000000112040345610668181610000000000102567047000001120403456106347524200000000001021453097000011204034560000000000000000000000000000000000112040345600000000000000000000000000000000001120403456000000000000000000000000000000000011204034560000000000000000000000000000000000112040345610572466160000000000000000000000001120403456000000000000000000001032424658000011204034560000000000000000000000000000000000112040345600000000000000000000000000000000001120403456000000000000000000000000000000000011204034560000000000000000000000000000000000)
 (.leaf 11204034560000000000000000000000000000000000112040345609878188560000000000000000000000001120403456109056529600000000001049702505000011204034561108771880108113638200000000000000111201484800000000000000000000000000000000001068135633000000000000000000000000000000000011020533760000000000000000000000000000000000112040345600000000000000000000000000000000001120403456000000000000000000000000000000000011204034560000000000000000000000000000000000112040345610596055101082465557000000000000001120403456106644671300000000000000000000000011204034561076639333102382625110336552720000112040345610162638870000000000000000000000001120403456105827006010586691731041535514000011204034560000000000000000000000000000000000))
 (.node 1 (.leaf 11204034561040114512000000000000000000000000112040345600000000000000000000000000000000001120403456000000000000000000000000000000000011204034560000000000000000000000000000000000112040345610982413781059848611000000000032261120403456107810592210588067460000000000322711204034561073581560104403273000000000003228112040345600000000001075073935103391846000001120403456000000000010525790440000000000000011204034560000000000107429253600000000000000112040345600000000000000000000000000000000001120403456000000000000000000000000000000000011204034560000000000000000000000000000000000112040345600000000000000000000000000000000001120403456000000000000000000000000000000000011112284160000000000000000000000000000000000)
 (.leaf 11112284160000000000000000000010298574110000111961702400000000000000000000104775048300001120403456000000000000000000000000000000000011196170241085192446000000000010442090080000108632473600000000000000000000000000000000001120403456000000000000000000000000000000000011204034560000000000000000000000000000000000112040345600000000000000000000000000000000001120403456000000000000000000000000000000000011204034560000000000000000000000000000000000112040345600000000000000000000000000000000001120403456000000000010954258510000000000000010779361280000000000107700415400000000000000110205337600000000000000000000104319501600001112801280000000000000000000000000000000000010994319360000000000000000000010242940070000))))
 (.node 4 (.node 2 (.node 1 (.leaf 11020533760000000000000000000000000000000000108632473600000000000000000000101793190000001077936128000000000000000000000000000000000011091312640000000000000000000000000000000000111044198400000000000000000000000000000000001103626240000000000000000000000000000000000010779361280000000000000000000000000000000000111411200000000000000000000000000000000000001102053376000000000000000000000000000000000010968104960000000000000000000000000000000000105555280500000000000000000000000000000000001067754707000000000000000000000000000000000010905190400000000000000000000010427624020000111489843200000000000000000000000000000000001099431936000000000000000000000000000000000011163402241061818877105457888800000000000000)
 (.leaf 11204034561094493810108426428400000000000000112040345610576171751085069171000000000000001120403456000000000000000000001020626512000011204034561067894687000000000000000000000000112040345600000000000000000000000000000000001120403456000000000000000000000000000000000011204034560000000000000000000000000000000000112040345600000000000000000000000000000000001120403456000000000000000000000000000000000011204034560000000000000000000000000000000000112040345600000000000000000000000000000000001120403456000000000000000000000000000000000011204034560000000000000000000000000000000000112040345600000000000000000000000000000000001120403456000000000000000000000000000000000011204034561035909336000000000000000000000000))
 (.node 1 (.leaf 11200102400000000000000000000010757581810000111817523200000000000000000000105119125400001108344832000000000000000000001015393062000011075584000000000000107522283310130847570000112040345600000000001042952277105008315500001120403456000000000000000000000000000000000011204034560000000000000000000000000000000000112040345600000000000000000000000000000000001120403456000000000000000000000000000000000011204034560979670766000000000000000000000000112040345600000000000000000000102514431300001120403456000000000000000000000000000000000011204034561041755458000000000000000000000000112040345600000000000000000000000000000000001120403456108221420710572062000000000000000011204034560000000000000000000000000000000000)
 (.leaf 11204034560000000000000000000000000000000000112040345600000000000000000000000000000000001120403456105724832710264837620000000000322911204034560000000000109555618900000000000000112040345610953430771096087503104126456900001120403456110990575210538138471065569764323011204034561028361736000000000000000000000000112040345600000000000000000000000000000000001120403456102372370910787842161072362763000011204034560000000000000000000000000000000000112040345600000000000000000000102039612600001120403456000000000000000000000000000000000011204034561073005757111080686200000000000000112040345610570082620000000000102556810300001102053376000000000000000000000000000000000011204034560000000000000000000010782547720000)))
 (.node 2 (.node 1 (.leaf 11204034560000000000000000000000000000000000112040345600000000000000000000000000000000001120403456000000000000000000000000000000000010968104960000000000000000000000000000000000110834483200000000000000000000000000000000001120403456105996400500000000000000000000000011204034560000000000000000000000000000000000112040345600000000000000000000000000000000001120403456000000000000000000000000000000000011204034560000000000000000000000000000000000111044198400000000000000000000000000000000001093664768000000000000000000000000000000000011020533760000000000000000000010167294900000111280128000000000000000000000000000000000001096810496000000000000000000000000000000000011160780800000000000000000000000000000000000)
 (.leaf 11067719680000000000000000000000000000000000109366476800000000001044442094000000000000001093664768000000000010497705380000000000000011156848640000000000000000000000000000000000110048051200000000000000000000101682406500001105199104000000000000000000000000000000000010779361280000000000000000000000000000000000111935488000000000000000000000000000000032311120403456000000000010742585620000000000323211204034560000000000000000000010356861620000112040345600000000000000000000000000000000001120403456000000000000000000000000000000000011204034561052709671000000000000000000000000112040345610681230670000000000000000000000001120403456000000000000000000000000000000000011204034560000000000000000000000000000000000))
 (.node 1 (.leaf 11204034560000000000000000000000000000000000112040345600000000000000000000000000000000001120403456000000000000000000000000000000000011204034560000000000000000000000000000000000112040345610653719651029973423107894441700001120403456107335272700000000000000000000000011204034560000000000000000000000000000000000112040345600000000000000000000000000000000001120403456105973722700000000000000000000000011204034561098759683109770965000000000000000112040345611204034560000000000000000000000001120403456111755079500000000000000000000000011204034560000000000000000000010537647573233111961702410658821931094788841104955644900001118175232107749840210466969521055365470000011204034560000000000000000000000000000000000)
 (.leaf 11204034560000000000000000000010472935430000112040345600000000000000000000000000000000001120403456107906856110168871940000000000000011204034561104356023106751496000000000003234112040345610746404031055239910000000000000001120403456109265149200000000001025494302000011204034560000000000000000000000000000000000112040345600000000000000000000000000000000001120403456000000000000000000000000000000000011204034560000000000000000000000000000000000112040345610595365721015598704104391644732351120403456000000000010927641461041399556000011204034561077463594000000000000000000000000112040345600000000000000000000000000000000001120403456000000000000000000000000000000000011204034560000000000000000000010365340453236))))))))))
 (.node 256 (.node 128 (.node 64 (.node 32 (.node 16 (.node 8 (.node 4 (.node 2 (.node 1 (.leaf 11204034560000000000000000000000000000000000112040345600000000000000000000000000000000001120403456000000000010923911680000000000000010582065250000000000000000000000000000000000111489843200000000000000000000000000000032371120403456000000000000000000000000000000000011204034561057194842000000000000000000000000109051904000000000000000000000105741300800001096810496000000000000000000000000000000000010699426230000000000000000000000000000000000112040345600000000000000000000000000000000001120403456000000000000000000001047121625000011204034560000000000000000000000000000000000112040345600000000000000000000000000000000001120403456000000000000000000000000000000000011204034560000000000000000000000000000000000)
 (.leaf 11204034560000000000000000000000000000000000112040345600000000000000000000000000000000001120403456108418256710337583630000000000323811204034560000000000000000000010407623900000110834483200000000000000000000000000000000001096810496000000000000000000000000000000000011075584000000000000000000000000000000000000111122841600000000000000000000000000000000001114112000000000000000000000000000000000000011020533760000000000000000000000000000000000110834483200000000000000000000000000000000001102053376000000000000000000000000000000000011020533760000000000000000000000000000000000110048051200000000000000000000000000000000001120010240000000000000000000000000000000000011204034560000000000000000000000000000000000))
 (.node 1 (.leaf 11156848640000000000000000000000000000000000107793612800000000000000000000000000000000001090519040000000000000000000000000000000000011075584000000000000000000000000000000000000107793612800000000000000000000000000000000001058533445000000000000000000000000000000000010502457360000000000000000000000000000000000106051636100000000000000000000000000000000001086324736000000000000000000000000000000000011148984320000000000108246450800000000000000112040345600000000000000000000000000000032391120403456000000000000000000000000000000000011204034561064054190107863825410399365650000112040345610746914610000000000000000000000001120403456108743014110751938920000000000000011204034561063302923000000000010190884180000)
 (.leaf 11204034560000000000000000000000000000000000112040345610618026370000000000000000000000001120403456000000000000000000000000000000000011204034560000000000000000000000000000000000112040345600000000000000000000000000000000001120403456000000000000000000001066514928000011204034560000000000000000000000000000000000112040345600000000000000000000000000000000001120403456106661899800000000001035621417000011204034561058591914104929406500000000000000112040345600000000000000000000000000000032401120403456000000000000000000001012226753324111204034561065606988000000000000000000000000112040345610765973021048579355105735728332421120403456000000000000000000000000000000000011204034560000000000000000000000000000000000)))
 (.node 2 (.node 1 (.leaf 11204034561120338910105670959400000000000000112040345611204034560000000000000000000000001120403456112013038210420865731058284755000011204034561083083864000000000010679615320000112040345610490679081059727815000000000000001120403456000000000000000000000000000000000011204034560000000000104632114210330264920000108632473610726577561065888409000000000000001120403456105331492600000000001061170276324311204034560000000000108097783710691361123244112040345600000000000000000000000000000000001120403456000000000000000000000000000000000011204034560000000000000000000000000000000000112040345611006123090000000000000000000000001120403456112040345600000000000000000000000011204034561116544358105909867000000000003245)
 (.leaf 11204034561092017486104606612810270665370000112040345610685103690000000000000000000000001120403456109928839400000000000000000000000011204034561088495005000000000000000000000000112040345600000000000000000000000000000000001120403456105339260400000000000000000000000011204034560000000000000000000010358919090000112040345610660891231077254554108333974900001120403456106700616610685006220000000000000011204034561028114776000000000010361308600000112040345600000000001077449169000000000000001120403456000000000000000000001029394980000011204034560000000000000000000000000000000000112040345600000000000000000000000000000000001120403456000000000010795496770000000000000011204034560000000000110400912800000000000000))
 (.node 1 (.leaf 11204034560000000000108061209410344948570000111634022400000000001094660181000000000000001093664768000000000010756946920000000000000010968104960000000000000000000000000000000000112001024000000000000000000000106216395000001120403456000000000000000000000000000000000011204034561049890025000000000000000000000000109051904000000000000000000000000000000000001120010240110014801611083211600000000000000011204034560000000000000000000000000000000000112040345600000000000000000000000000000000001120403456000000000000000000000000000000000011204034561042556268000000000010236089470000112040345600000000000000000000000000000000001120403456000000000000000000000000000000000011167334400000000000000000000010596538090000)
 (.leaf 10863247360000000000000000000000000000000000112040345600000000001061680683000000000000001120403456104408480610367514181066076829000011148984320000000000000000000000000000000000112040345600000000000000000000000000000000001120010240000000000000000000000000000000000011091312640000000000000000000000000000000000110991769600000000000000000000000000000000001103626240000000000000000000000000000000000010863247360000000000000000000000000000000000110913126400000000000000000000000000000000001117126656000000000000000000000000000000000011204034560000000000000000000000000000000000112040345600000000000000000000105734848000001120403456000000000000000000000000000000000011204034560000000000000000000010677538770000))))
 (.node 4 (.node 2 (.node 1 (.leaf 11036262400000000000000000000010318270880000109051904000000000000000000000000000000000001100480512000000000000000000000000000000000011020533760000000000000000000000000000000000109681049600000000000000000000000000000000001060927135000000000000000000000000000000000010483862160000000000000000000000000000000000105475629000000000000000000000000000000000001061456942000000000000000000000000000000000011128012800000000000000000000000000000000000112040345600000000000000000000103894854700001120403456000000000000000000000000000000000011204034561080534285000000000000000000000000112040345610613160140000000000000000000000001120403456109374235210539379980000000000000011204034561093817147101688719400000000000000)
 (.leaf 11204034561074526562000000000000000000000000112040345600000000000000000000000000000000001120403456106753011000000000000000000000000011204034560965372283000000000000000000000000112040345610631080550000000000000000000000001120403456000000000000000000000000000000000011204034560000000000000000000000000000003246112040345610422680351083824092000000000032471120403456110952184410746897370000000000324811204034561090457589000000000010448851070000111489843211140656041069250563000000000000001120403456000000000000000000000000000000000011204034560000000000000000000000000000000000112040345600000000000000000000000000000000001120403456000000000000000000000000000000000011204034561119191672000000000000000000000000))
 (.node 1 (.leaf 11204034561119797254000000000000000000000000112040345611037827251041314821105040481200001120403456105684304000000000000000000000000011204034561090760865102166534600000000000000112040345600000000000000000000000000000000001120403456000000000000000000000000000000000011204034560000000000000000000000000000000000112040345610565566530000000000000000000000001120403456000000000000000000000000000000000011204034560000000000000000000000000000003249112040345600000000000000000000000000000032501120403456000000000010543003861069685520000011204034560000000000106206655910369925973251112040345610679249701025544238000000000032521120403456000000000000000000000000000000000011204034560000000000000000000000000000000000)
 (.leaf 11204034560000000000000000000010365333070000112040345600000000000000000000000000000000001120403456000000000010759689990000000000000010936647680000000000102428259100000000000000109943193600000000001081547004000000000000001103626240000000000010908397990000000000000011141120000000000000000000000000000000000000112040345611156761341032349077105133687800001120403456110318759500000000000000000000000011204034560000000000000000000000000000000000112040345610675089040000000000000000000000001119617024107347933610986918510000000000000011083448320000000000000000000010463626220000111751987200000000000000000000105101153000001096810496000000000000000000000000000000000011204034560000000000000000000000000000000000)))
 (.node 2 (.node 1 (.leaf 11204034560000000000000000000000000000000000112040345600000000000000000000000000000000001120403456000000000000000000000000000000000011204034560000000000000000000000000000000000107455929400000000000000000000000000000000001110441984000000000010755265000000000000000011204034560000000000000000000000000000003253111935488000000000001083300433104225054700001116340224000000000010638902431043199825000010994319360000000000106084350000000000000000108632473600000000000000000000000000000000001102053376000000000000000000000000000000000011135877120000000000000000000000000000000000110519910400000000000000000000000000000000001102053376000000000000000000000000000000000010936647680000000000000000000000000000000000)
 (.leaf 10905190400000000000000000000010406149520000111201484800000000000000000000000000000000001086324736000000000000000000000000000000000010994319360000000000000000000000000000000000110913126400000000000000000000000000000000001120403456000000000000000000000000000000000011020533760000000000000000000000000000000000107793612800000000000000000000000000000000001102053376000000000000000000000000000000000011091312640000000000000000000000000000000000109681049600000000000000000000000000000000001114898432110653267409767158280000000000325410553205410000000000000000000000000000000000107747567700000000000000000000000000000000001008981770000000000000000000000000000000000010357600050000000000000000000000000000000000))
 (.node 1 (.leaf 10161008930000000000000000000000000000000000112040345600000000000000000000000000000000001120403456000000000000000000001049536964000011204034561080785692102043054200000000000000112040345610761748311090053472000000000000001120403456109137057200000000000000000000000011204034560000000000000000000000000000000000112040345610920096951014887350104609280400001120403456106493148710216653460000000000000011204034560000000000000000000000000000000000112040345600000000000000000000000000000000001120403456000000000000000000000000000000000011204034560000000000000000000000000000000000112040345600000000000000000000000000000000001120403456110556808210290875861051541969000011204034561108503979104658286700000000003255)
 (.leaf 11204034560000000000000000000010050084860000112040345600000000000000000000000000000000001120403456000000000000000000000000000000000011204034560000000000000000000000000000000000112040345600000000000000000000000000000000001120403456108665606710289265251051762491000011204034561099176500102476577500000000003256112040345610433878810000000000105351918832571120403456109610305010661249681012538216000011204034560000000000000000000000000000000000112040345600000000000000000000000000000000001120403456108389476610370735411051783165000010968104961094201248000000000010163082830000111791308800000000000000000000105821240132581120403456000000000000000000001060675659000011204034560000000000000000000000000000000000)))))
 (.node 8 (.node 4 (.node 2 (.node 1 (.leaf 11204034560000000000000000000000000000000000112040345600000000000000000000000000000000001120403456000000000000000000000000000000000011204034560000000000000000000000000000000000112040345600000000000000000000000000000000001120403456000000000000000000000000000000000011204034560000000000000000000000000000000000112040345610837729931084094205000000000000001120403456111017857210859516530000000000000011204034561115729997100574712300000000000000112040345610800700640000000000000000000032591120403456000000000000000000000000000000000011204034561030110862000000000000000000000000112040345600000000000000000000000000000000001120403456000000000000000000000000000000000011204034560000000000000000000000000000000000)
 (.leaf 11204034561075268144105662906400000000000000112040345600000000000000000000000000000000001120403456108545908810277722521042725959000011204034560000000000108396166510758380040000112040345600000000001065966423000000000032601120403456000000000000000000000000000000000011204034561051808936104982422510509090203261112040345600000000001085897966000000000000001117126656104085411910775720621024384396000011004805120000000000000000000000000000000000110362624000000000001090943713000000000000001120403456109791073110886416701064554210000011204034561107816889102273908710522689240000112040345600000000000000000000000000000000001112014848000000000000000000001054015846000011112284160000000000000000000000000000000000))
 (.node 1 (.leaf 11204034560000000000000000000000000000000000112040345600000000000000000000105090318900001120403456000000000000000000000000000000000011193548800000000000000000000010709462470000107793612800000000000000000000104921272600001120403456000000000000000000000000000000000011204034560000000000000000000000000000000000112040345600000000000000000000000000000032621077936128000000000000000000000000000000000011020533760000000000000000000000000000000000108632473600000000000000000000000000000000001077936128000000000000000000000000000000000010968104960000000000000000000000000000000000111044198410757551441095559125000000000000001103626240000000000010143504790000000000000011004805120000000000000000000000000000000000)
 (.leaf 11193548800000000000000000000010412970440000112040345600000000000000000000000000000000001117126656000000000000000000001032084579000010823668650000000000000000000000000000000000110362624000000000001091667021000000000000001096810496000000000010856488241021092174000010779361280000000000000000000010210847070000110048051200000000000000000000000000000000001024634483000000000000000000000000000000000010089817700000000000000000000000000000000000105970630700000000000000000000000000000000001065191836000000000000000000000000000000000011091312640000000000000000000000000000000000111411200000000000000000000000000000000000001120403456000000000000000000001032753832000011204034561097694181108206164500000000000000)))
 (.node 2 (.node 1 (.leaf 11204034561087955475104771700700000000000000112040345600000000000000000000000000000000001120403456000000000000000000000000000000000011204034560000000000000000000000000000000000112040345610827376961041361797106281509332631120403456000000000000000000001038387092000011204034560000000000000000000010243171620000112040345610859236961040576623103725091932641120403456109646678710540957040000000000326511204034561086755367104552254710563481820000112040345610901645630000000000000000000000001120403456107704151710347381521050409484000011204034560000000000000000000000000000000000112040345610265138270000000000000000000000001120403456000000000000000000000000000000000011204034560000000000000000000000000000000000)
 (.leaf 11204034561049207125000000000000000000000000112040345611111586111045220557105553087900001120403456111855935710418651141050522562000011112284161107041755104637482910648973500000107793612800000000000000000000104016054400001120403456000000000000000000000000000000000011204034560000000000000000000000000000000000112040345600000000000000000000000000000000001120403456000000000000000000001021328612000011204034560000000000000000000000000000000000112040345610378011351080392732000000000000001120403456106181644510162429490000000000000011204034560000000000000000000000000000000000112040345600000000000000000000000000000000001120403456000000000000000000000000000000000011204034560000000000000000000000000000000000))
 (.node 1 (.leaf 11204034560000000000000000000000000000000000112040345600000000000000000000000000000000001120403456000000000000000000000000000000000011204034561052717456000000000000000000000000112040345610603556020000000000000000000000001120403456108283921310783614300000000000000011204034560000000000108488650900000000000000112040345600000000000000000000000000000032661120403456000000000000000000001028660300326711204034560000000000000000000000000000000000112040345600000000001030027110105490346900001120403456103337436610796226580000000000326811204034560000000000107526561500000000000000112040345600000000001085699365000000000000001120403456000000000010393149770000000000000011051991040000000000000000000000000000000000)
 (.leaf 11120148480000000000000000000010340882400000112040345600000000000000000000105359010300001120403456000000000000000000000000000000000011204034561087703041000000000000000000000000112040345610822525141103337515000000000000001114112000000000000000000000000000000000000011181752320000000000000000000000000000000000110834483200000000000000000000000000000000001117126656000000000000000000001049384458000011083448320000000000000000000010514450270000111961702400000000000000000000106911958100001120403456111343236710412342901051082148000011204034560000000000000000000000000000000000110677196800000000000000000000000000000000001120403456000000000000000000000000000000000011204034560000000000000000000000000000000000))))
 (.node 4 (.node 2 (.node 1 (.leaf 11189616640000000000000000000000000000000000112001024000000000000000000000104443985832691099431936000000000000000000000000000000000010968104960000000000000000000000000000000000110205337600000000000000000000101622121700001102053376000000000010823982380000000000000011020533760000000000108254000600000000000000111201484800000000000000000000000000000000001119617024000000000000000000000000000000000011193548800000000000000000000000000000000000111791308800000000001054199723000000000000001106771968000000000010848208680000000000000011204034560000000000000000000010343735980000112040345610679862240000000000000000000000001120403456106799103900000000000000000000000011204034561114145910102503421110369354190000)
 (.leaf 11204034561092431067000000000000000000000000112040345600000000000000000000000000000000001120403456000000000000000000000000000000327011185684480000000000000000000010261592763271111489843200000000000000000000000000000000001099431936000000000000000000000000000000000010936647680000000000000000000000000000000000110048051200000000000000000000000000000000001100480512000000000000000000000000000000000010321708760000000000000000000000000000000000100898177000000000000000000000000000000000001051038291000000000000000000000000000000000011204034560000000000000000000000000000000000112040345600000000001089907301000000000000001120403456000000000000000000000000000000000011204034560000000000000000000000000000000000))
 (.node 1 (.leaf 11204034561094594131000000000000000000000000112040345600000000000000000000000000000000001120403456000000000000000000000000000000000011204034561081088957000000000000000000000000112040345600000000000000000000000000000000001120403456109159344510138136081032559865000011204034561061230786000000000000000000000000112040345611097230371071035659104997117432721120403456000000000000000000000000000000000011204034560000000000000000000000000000003273112040345600000000000000000000000000000000001120403456000000000000000000000000000000000011204034560000000000000000000000000000000000112040345600000000000000000000000000000000001120403456110127710610216653460000000000000011204034561106252947000000000000000000000000)
 (.leaf 11204034561104270851000000000010442917240000112040345610860803230000000000097922409500001090519040000000000000000000000000000000000011185684480000000000000000000010723203380000112040345600000000000000000000102183823600001120403456000000000000000000000000000000000011204034560000000000000000000000000000000000112040345610486195540000000000000000000000001120403456107507974800000000000000000000000011204034560000000000000000000000000000000000112040345600000000000000000000000000000000001120403456000000000010662851900000000000000011204034561030528547106905846400000000000000112040345600000000001058412482102931962400001120403456000000000000000000000000000000000011204034561060728560107396370300000000000000)))
 (.node 2 (.node 1 (.leaf 11204034560000000000109981796900000000000000112040345600000000000000000000000000000000001120403456000000000000000000001028302057000011204034560000000000000000000000000000000000112040345600000000000000000000000000000000001120403456000000000010162429491015111439327411204034561047763312101016288610463500133275112040345600000000000000000000000000000000001120403456106016860310530353841049103299000010994319360000000000000000000010347669650000112040345600000000000000000000000000000000001120403456000000000000000000000000000000000011204034560000000000104906589510456786890000109051904000000000000000000000000000000000001106771968000000000000000000000000000000000010968104960000000000000000000000000000000000)
 (.leaf 10779361280000000000000000000000000000000000111201484800000000000000000000000000000000001120403456107649889900000000000000000000327611204034560000000000000000000000000000000000110834483200000000000000000000000000000000001119617024000000000000000000000000000000000011141120000000000000000000000000000000000000109366476800000000000000000000000000000000001120010240000000000000000000000000000000000011204034560000000000000000000000000000000000111673344000000000000000000000000000000000001117913088000000000000000000001052660640000010968104960000000000000000000000000000000000110362624000000000000000000000000000000000001114112000000000000000000000000000000000000011163402240000000000000000000000000000000000))
 (.node 1 (.leaf 11185684480000000000108600575900000000000000111673344000000000001085501394000000000000001120010240000000000000000000000000000000000010994319360000000000000000000000000000000000107793612800000000000000000000000000000000001117519872000000000000000000000000000000000011204034560000000000000000000000000000000000111856844800000000000000000000104931461300001120403456000000000000000000000000000000000011179130880000000000104996850900000000000000112040345600000000000000000000000000000000001120403456109564707300000000000000000000000011204034560000000000000000000000000000000000112040345600000000000000000000000000000000001120403456000000000000000000000000000000000011175198720000000000000000000000000000000000)
 (.leaf 11112284160000000000000000000000000000000000110519910400000000000000000000000000000000001077936128000000000000000000000000000000000011083448320000000000000000000000000000000000109366476800000000000000000000000000000000001047869344000000000000000000000000000000000010089817700000000000000000000000000000000000104700545100000000000000000000099626436100001109917696000000000000000000000000000000000011204034560000000000000000000000000000003277112040345600000000000000000000000000000000001120403456103582947710758343620000000000000011204034561120403456000000000000000000000000112040345610732244821032402764000000000000001120403456108479778500000000000000000000000011204034561091299172105473994900000000000000))))))
 (.node 16 (.node 8 (.node 4 (.node 2 (.node 1 (.leaf 11204034561094354641000000000010586042600000112040345600000000000000000000000000000000001120403456000000000000000000000000000000000011204034561099099251102541002010324492693278112040345610890997211057452825108536812632791120403456000000000000000000000000000000000011204034560000000000000000000000000000000000112040345600000000000000000000000000000000001120403456000000000000000000000000000000000011204034560000000000000000000000000000000000112040345600000000000000000000000000000000001120403456000000000000000000001051260555328011204034560000000000000000000010498722580000111751987200000000000000000000106689885500001099431936000000000000000000001054623427000010596086470000000000000000000000000000000000)
 (.leaf 10936647680000000000000000000010529847613281111896166400000000000000000000000000000032821120403456000000000010612662860000000000000011204034560000000000000000000000000000000000112040345600000000000000000000000000000000001120403456000000000000000000000000000000000011204034561050310630000000000000000000000000112040345610824320571064453957000000000000001120403456105205975510216653460000000000000011204034560000000000000000000000000000000000112040345600000000000000000000000000000000001120403456106679689510445360460000000000000011204034560000000000000000000000000000000000112040345610361789800000000000000000000000001120403456109943546510826402500000000000000011204034560000000000108988192510225235680000))
 (.node 1 (.leaf 11204034560000000000000000000000000000000000112040345600000000000000000000000000000000001120403456000000000000000000000000000000000011204034561057396940000000000000000000000000112040345600000000001101196847000000000000001120403456000000000011083891340000000000000011204034560000000000106447073400000000000000112040345600000000000000000000104062684232831120403456000000000010791050810000000000000011204034561070559497107482731010637822260000112040345600000000001063185600000000000000001116078080000000000000000000000000000000000011148984320000000000000000000000000000000000112040345600000000000000000000000000000000001120403456109309171510109145061044204603000011204034560000000000000000000000000000000000)
 (.leaf 11171266560000000000000000000000000000000000107793612800000000000000000000000000000000001118568448000000000010859608800000000000000011175198720000000000000000000010385393883284110913126400000000000000000000000000000000001112014848000000000000000000000000000000000010779361280000000000000000000000000000000000111712665600000000000000000000000000000000001090519040000000000000000000000000000000000011181752320000000000000000000000000000000000110519910400000000000000000000000000000000001115684864000000000000000000000000000000000011004805120000000000000000000000000000000000110519910400000000000000000000000000000000001103626240000000000000000000000000000000000011104419840000000000000000000000000000000000)))
 (.node 2 (.node 1 (.leaf 11112284161099461180110233093400000000000000110755840000000000001015974514000000000000001120010240000000000000000000001068544737000011204034560000000000000000000010249829320000112040345600000000000000000000000000000000001120403456000000000010816829000000000000000011204034560000000000107518676200000000000000112040345600000000000000000000102792761200001120403456108771513900000000000000000000000011204034560000000000000000000000000000000000112040345610999829350000000000000000000000001120403456110465411900000000000000000000000011204034561097045832000000000000000000000000111791308810896712370000000000000000000000001093664768000000000000000000000000000000000011051991040000000000000000000000000000000000)
 (.leaf 10089817700000000000000000000000000000000000106340939000000000000000000000105194936400001120403456000000000000000000000000000000000011204034560000000000000000000010186834190000112040345610886658640000000000000000000000001120403456112039304710300796321019151900000011204034561120403456000000000000000000000000112040345611204034560000000000000000000000001120403456106672936700000000000000000000000011204034560000000000000000000000000000000000112040345610910270750000000000101107765200001120403456000000000000000000001028675061000011204034560000000000000000000000000000000000112040345610944626461041388641105437036532851120403456108487318010271280071030900338000011204034560000000000000000000000000000000000))
 (.node 1 (.leaf 11204034560000000000000000000000000000000000112040345600000000000000000000000000000000001120403456000000000000000000000000000000000011204034560000000000000000000000000000000000112040345600000000000000000000000000000000001120403456000000000000000000000000000000000011204034560000000000000000000000000000000000112040345600000000000000000000000000000000001120403456000000000000000000000000000000328611204034560000000000000000000000000000000000112040345610889698760000000000097941928600001120403456110761234500000000000000000000328711204034560000000000000000000000000000000000112040345610876204761040596756103727698732881120403456000000000010340536421034815529000011204034560000000000110472582910405232033289)
 (.leaf 11204034561074460489107742316500000000000000112040345610216497761021557971000000000000001120403456000000000010944765760000000000000011204034561059225422110288694100000000000000112040345600000000000000000000101897571900001120403456000000000010828138940000000000000011204034560000000000000000000000000000003290112040345610588003041073803480000000000000001120403456110353517009532679910000000000000011204034560000000000109080268000000000000000112040345600000000001041381930000000000000001120403456106751273700000000000000000000000011204034561049747150000000000010668122040000112040345610347527821074908260105437710900001120403456000000000010495323010000000000000011204034561086253743000000000010348143470000))))
 (.node 4 (.node 2 (.node 1 (.leaf 10089817700000000000000000000000000000000000109051904000000000000000000000000000000000001116733440000000000000000000000000000000000011204034560000000000000000000000000000000000112040345600000000000000000000000000000000001099431936107822069510963898070000000000000010779361280000000000000000000000000000000000111817523210778012601041945644107565983800001116078080105084330710329933221042064813000011196170240000000000000000000000000000000000112040345600000000000000000000000000000000001114898432000000000000000000000000000000000011020533760000000000000000000000000000000000109051904010666689781087714938000000000000001093664768106229578610928072810000000000000011179130880000000000000000000000000000000000)
 (.leaf 11200102400000000000000000000010219961770000112040345600000000000000000000106369262000001120403456000000000010894717220000000000000011204034560000000000109793761010403784730000112040345600000000001097962986000000000000001120403456000000000010922088200000000000000011204034560000000000000000000000000000000000112040345610512508920000000000000000000000001120403456109485362610447776381048043107000011067719680000000000000000000000000000000000111358771200000000000000000000000000000000001109917696000000000000000000000000000000000011163402240000000000000000000000000000000000109051904000000000000000000000000000000000001044478870000000000000000000000000000000000011204034560000000000000000000000000000000000))
 (.node 1 (.leaf 11204034560000000000000000000010287989190000112040345600000000000000000000000000000000001120403456106091430000000000001043315521000011204034561065329225000000000000000000000000112040345610919440600000000000000000000000001120403456109851125500000000000000000000000011204034561035660094000000000000000000000000112040345600000000000000000000000000000000001120403456000000000000000000000000000000000011204034560000000000000000000000000000000000112040345600000000000000000000000000000000001120403456104506365600000000000000000000000011204034561070200640000000000000000000000000112040345600000000000000000000000000000000001120403456000000000000000000000000000000329111204034560000000000000000000000000000000000)
 (.leaf 11204034560000000000000000000000000000000000112040345600000000000000000000000000000000001120403456107414934300000000000000000000000011204034560000000000000000000000000000000000112040345600000000000000000000000000000000001120403456000000000000000000000000000000000011204034560000000000000000000000000000000000112040345600000000000000000000000000000000001120403456000000000000000000000000000000000011204034560000000000000000000000000000000000112040345600000000000000000000104645429100001120403456107660342600000000001027411699000011204034561088270543100855227410413196090000112040345600000000000000000000000000000000001120403456000000000010755235641043446116000011204034560000000000108296384010562452583292)))
 (.node 2 (.node 1 (.leaf 11204034560000000000000000000010416032690000112040345610779336030953267991105607956800001120403456000000000010842332461057710092000011204034561085540575000000000000000000000000112040345600000000000000000000105965532900001120403456105077052700000000000000000000000011204034560000000000000000000000000000000000112040345600000000000000000000000000000000001120403456000000000010295707700000000000000011204034561087772893108437081900000000000000112040345610631516760000000000000000000000001120403456106221092710096260151000011528329311204034560000000000109060879810268011630000112040345600000000000000000000000000000000001120403456107900950900000000000000000000000011204034560000000000106256987610658954070000)
 (.leaf 11204034560000000000103487237010668177120000112040345610717797201086026311104771223000001120403456000000000010955676190000000000000011204034560000000000000000000000000000000000108161465800000000000000000000000000000000001067833392000000000000000000000000000000000011120148480000000000000000000000000000000000111961702400000000000000000000000000000032941120403456000000000000000000000000000000329511204034560000000000000000000000000000000000112040345600000000000000000000000000000000001119617024000000000000000000001024703645000011163402240000000000000000000000000000000000111634022400000000000000000000000000000000001105199104000000000000000000000000000000000011148984320000000000000000000000000000000000))
 (.node 1 (.leaf 11004805120000000000000000000000000000000000106933822400000000000000000000000000000000001120403456110853457410216116581042293465000011204034560000000000000000000000000000000000112040345600000000000000000000000000000000001120403456108967869210235309721031455555000011204034560000000000000000000000000000000000112040345610507575410000000000102111028600001120403456109206192100000000000000000000000011204034561107776272105516609010671288440000112040345611158741871046139948105709824000001120403456000000000000000000000000000000000011099176960000000000000000000000000000000000107793612800000000000000000000000000000000001074649849000000000000000000000000000000000011167334400000000000107693956110114223790000)
 (.leaf 11135877120000000000000000000000000000000000110048051200000000000000000000000000000000001008981770000000000000000000000000000000000010273239920000000000000000000000000000000000109943193600000000000000000000000000000000001120403456000000000000000000000000000000000011204034560000000000000000000000000000000000112040345600000000000000000000103187448100001120403456000000000000000000000000000000000011204034560000000000000000000000000000000000112040345610817051380000000000000000000000001120403456110578988100000000000000000000000011204034560000000000000000000000000000000000112040345610816751240000000000000000000000001120403456000000000000000000000000000000000011204034561079859149000000000010020578860000)))))
 (.node 8 (.node 4 (.node 2 (.node 1 (.leaf 11204034561093313154103412075110362094620000112040345600000000000000000000000000000000001120403456000000000000000000000000000000000011204034560000000000000000000010655826740000112040345610252704340000000000000000000000001120403456000000000000000000000000000000000011204034560000000000000000000000000000000000112040345600000000000000000000000000000000001120403456000000000000000000000000000000000011204034560000000000000000000000000000000000112040345600000000000000000000000000000000001120403456000000000000000000000000000000000011204034561051138820000000000000000000000000112040345600000000000000000000000000000000001120403456110055330110151692081032515728000011204034561067509726000000000010322920610000)
 (.leaf 11204034560000000000000000000010218518380000112040345600000000000000000000104667101900001120403456109603009810944997490000000000000011181752321098754453104615337010479118420000111896166409990942190000000000104788814700001105199104000000000000000000001050763456000011204034560000000000000000000000000000000000112040345610568596501077826657000000000000001120403456000000000000000000000000000000000011204034560000000000108067333100000000000000112040345610099803500000000000000000000000001120403456107234748610409658550000000000000011204034561065663553103005395410404491000000112040345600000000000000000000103363175400001120403456105802991110743923611032978884000011204034560000000000000000000000000000000000))
 (.node 1 (.leaf 11204034560000000000000000000000000000000000112040345600000000000000000000000000000000001120403456000000000000000000000000000000000011204034561038757973000000000000000000000000112040345610946043950000000000000000000000001120403456107921161610942397020000000000000011204034561098141376107180237800000000000000112040345600000000001051837491104119396900001120403456000000000000000000001041025108000011204034560000000000107525219300000000000000112040345600000000001017101943000000000000001120403456000000000000000000000000000000000011051991040000000000000000000010236749380000109681049600000000000000000000000000000000001099431936000000000000000000000000000000000011196170240000000000000000000000000000000000)
 (.leaf 11204034560000000000000000000000000000003296112040345600000000000000000000089039797632971114898432000000000000000000000000000000000011036262400000000000000000000000000000000000110677196800000000000000000000000000000000001116340224000000000000000000000000000000000010994319360000000000000000000000000000000000112040345610941050861043609944105321070700001120403456000000000000000000001026285137000011204034560000000000000000000000000000000000112040345600000000000000000000101852268700001120403456110604967410355166151039898830000011156848640000000000000000000000000000000000108213043200000000000000000000107799767800001102053376000000000000000000001070465760000011193548800000000000000000000010501655320000)))
 (.node 2 (.node 1 (.leaf 11200102400000000000000000000000000000000000109051904000000000000000000000000000000000001099431936000000000000000000000000000000000011204034560000000000000000000000000000000000112040345600000000000000000000000000000000001120403456000000000000000000000000000000000011204034561063331461000000000010350597300000112040345611189360561038200970104659288700001120403456108584485500000000000000000000000011204034560000000000000000000000000000000000112040345610898259820000000000000000000000001120403456000000000000000000000000000000000011204034560000000000000000000000000000000000112040345600000000000000000000000000000000001120403456107366304700000000000000000000000011204034560000000000000000000000000000000000)
 (.leaf 11204034560000000000000000000000000000000000112040345600000000000000000000000000000000001120403456107451699000000000001053937122000011204034560000000000000000000000000000000000112040345610527628210000000000000000000000001120403456107079254900000000000000000000000011204034560000000000000000000000000000000000112040345600000000000000000000000000000000001120403456000000000000000000000000000000000011204034560000000000000000000000000000000000112040345600000000000000000000000000000000001120403456000000000000000000000000000000000011204034560000000000000000000000000000000000112040345610815198380000000000000000000000001120403456000000000000000000000000000000000011204034561112980294000000000000000000000000))
 (.node 1 (.leaf 11204034561103614445000000000000000000000000112040345611005501690000000000103222439500001120403456108521562200000000000000000000000011204034560000000000000000000010477095980000112040345600000000000000000000104566262332981120403456000000000000000000001030053714329911204034561092909271100737115810488138810000112040345610771244421058902376105087350400001120403456000000000000000000001024496287000011135877120000000000000000000010266971590000112040345600000000000000000000000000000000001120403456105767334510699921161051337893000011204034560000000000105420978910586117210000112040345600000000000000000000000000000000001120403456000000000000000000001036784629000011204034560000000000000000000000000000000000)
 (.leaf 11204034560000000000106942756300000000000000112040345610763083441087497673000000000000001120403456108863776000000000000000000000000011204034560000000000000000000000000000000000112040345610876367860000000000104412409200001120403456000000000010687355031051527332000011204034560000000000000000000000000000000000112040345600000000000000000000000000000000001120403456000000000000000000000000000000000011204034560000000000000000000000000000000000109366476800000000000000000000000000000000001100480512000000000000000000000000000000000011051991040000000000000000000000000000000000110834483210605235760000000000103816278500001086324736000000000010788785880000000000000011075584000000000000000000000000000000000000))))
 (.node 4 (.node 2 (.node 1 (.leaf 11004805120000000000000000000000000000000000110205337600000000000000000000000000000000001099431936000000000000000000000000000000000011075584000000000000000000000000000000000000110519910400000000000000000000000000000000001120403456107143311100000000001049438222000011204034561010406626000000000000000000000000112040345610673238010000000000000000000000001120403456111030155400000000000000000000000011204034560000000000000000000000000000000000112040345600000000000000000000102004019300001120403456000000000000000000001032046760000011204034560000000000000000000000000000000000112040345600000000000000000000000000000000001119354880000000000000000000000000000000000010994319360000000000000000000000000000000000)
 (.leaf 10994319360000000000000000000010317344530000110205337600000000000000000000000000000000001116340224000000000000000000000000000000000011200102400000000000000000000000000000000000112040345600000000000000000000103664218100001120403456000000000000000000001032057696000011204034560000000000000000000010253785490000111607808000000000000000000000000000000000001114112000000000000000000000000000000000000011083448320000000000000000000000000000000000104092767000000000000000000000000000000000001008981770000000000000000000000000000000000010905190400000000000000000000000000000000000112001024000000000000000000000000000000000001120403456000000000000000000000000000000000011204034560000000000000000000000000000000000))
 (.node 1 (.leaf 11204034560000000000000000000000000000000000112040345610411820800000000000000000000000001120403456000000000000000000000000000000000011204034561091647807000000000000000000000000112040345610751800930000000000000000000000001120403456108870220010270206331031434414000011204034560000000000000000000000000000000000112040345600000000000000000000000000000000001120403456000000000000000000000000000000000011204034560000000000000000000010602691560000112040345600000000000000000000000000000000001120403456000000000000000000000000000000000011204034560000000000000000000000000000000000112040345600000000000000000000000000000000001120403456000000000000000000000000000000000011204034560000000000000000000000000000000000)
 (.leaf 11204034560000000000000000000000000000000000112040345600000000000000000000000000000000001120403456000000000000000000000000000000000011204034561090068115000000000000000000000000112040345610920863500000000000000000000000001120403456000000000000000000000000000000000011204034561092887699000000000000000000000000112040345611002670800000000000000000000000001120403456110292100710449655431053919106000011204034561097958260000000000000000000000000112040345610923367540000000000000000000000001120403456000000000000000000001037287599000011204034561092383552000000000010428996800000112040345600000000001085675248104955415233001120403456100894526310896369781057201839000011204034561096195474000000000010463126283301)))
 (.node 2 (.node 1 (.leaf 11204034560000000000000000000010465093540000112040345600000000000000000000000000000000001120403456000000000000000000000000000000000011204034560000000000000000000000000000000000112040345600000000000000000000000000000000001120403456000000000000000000000000000000000011204034560000000000108479192810444978180000112040345600000000000000000000000000000000001120403456000000000010732770950000000000000011204034560000000000108027403300000000000000112040345610300190571087172195000000000000001120403456000000000000000000001018461267000011204034560000000000000000000010315799910000112040345600000000000000000000000000000000001120403456107455731810873324181050698667000011204034560000000000104454946800000000000000)
 (.leaf 11204034561057367832104876390500000000003302112040345600000000001046623132000000000033031120403456103303922410980209720000000000000011204034560000000000105984861100000000000000112040345600000000001089984057000000000000001120403456000000000000000000000000000000000011204034560000000000000000000000000000000000112040345600000000001065104913000000000000001120403456000000000010868116951028748776000011204034560000000000000000000000000000000000110834483209981831490000000000000000000000001077936128000000000000000000000000000000000011075584000000000000000000000000000000000000112040345600000000000000000000103362534800001113587712000000000000000000001046930042000010968104960000000000000000000000000000000000))
 (.node 1 (.leaf 10968104960000000000000000000000000000000000111673344000000000000000000000103531285600001105199104000000000000000000000000000000000011204034560000000000000000000010484691650000112040345610519325840000000000104753670900001120403456112040345600000000000000000000000011204034560000000000000000000000000000000000112040345600000000000000000000000000000000001120403456000000000000000000000000000000000011204034560000000000000000000000000000003304112040345610922563900000000000000000000033051120403456106948848100000000000000000000000011204034560000000000000000000000000000000000111044198400000000000000000000000000000000001096810496000000000000000000000000000000000011120148480000000000000000000000000000000000)
 (.leaf 11120148480000000000000000000000000000000000109051904000000000000000000000101703221700001117126656000000000000000000001039475729000011091312640000000000000000000000000000000000103761927000000000000000000000000000000000001035862642000000000000000000000000000000000011204034560000000000000000000000000000000000112040345600000000000000000000000000000000001120403456000000000000000000000000000000000011204034560000000000000000000000000000000000112040345610789625710000000000105897083600001120403456104367839500000000000000000000000011204034560000000000000000000000000000000000112040345610739670460000000000000000000000001120403456108306448700000000000000000000000011204034561098124476103402679810405679620000)))))))
 (.node 32 (.node 16 (.node 8 (.node 4 (.node 2 (.node 1 (.leaf 11204034561086767963000000000000000000000000112040345600000000000000000000000000000000001120403456101689310000000000000000000000000011204034560000000000000000000000000000000000112040345600000000000000000000000000000000001120403456000000000000000000000000000000000011204034560000000000000000000000000000000000112040345600000000000000000000000000000000001120403456000000000000000000000000000000000011204034560000000000000000000000000000000000112040345600000000000000000000000000000000001120403456000000000000000000000000000000000011204034561037421836000000000010605549590000112040345610984939120000000000000000000033061120403456000000000000000000000000000000000011204034560000000000000000000000000000000000)
 (.leaf 11204034560000000000000000000000000000000000112040345610591893170000000000000000000000001120403456000000000000000000001034517233000011204034561084472481000000000010289678393307112040345610928532170000000000102549496533081120403456000000000000000000001026953608000011204034560000000000000000000000000000000000112040345600000000000000000000103491226800001120403456000000000010335570360000000000000011204034560000000000000000000000000000000000112040345610387956881049445060000000000000001120403456105260192810824341000000000000000011204034560000000000107451902910170118220000112040345610710135131071242019000000000000001120403456000000000010330604310000000000000011204034560000000000106716012200000000000000))
 (.node 1 (.leaf 11204034561102599366108358438710507662700000112040345610757313331082963840000000000000001120403456000000000000000000000000000000000011204034560000000000000000000000000000000000112040345600000000000000000000000000000000001120403456000000000000000000000000000000000011204034560000000000109700060300000000003309112040345600000000000000000000000000000000001120403456000000000010549412760000000000000010597835330000000000000000000000000000000000109681049600000000000000000000000000000000001114112000000000000000000000000000000000000011185684480000000000000000000000000000000000112040345600000000000000000000000000000000001120403456000000000000000000000000000000000011204034560000000000000000000000000000003310)
 (.leaf 11120148480000000000000000000010264530780000110755840000000000000000000000000000000000001103626240000000000000000000001007523785000011020533760000000000000000000000000000000000111673344000000000000000000000102802780200001114112000000000000000000000000000000000000011020533760000000000000000000010488666360000109943193600000000000000000000000000000000001103626240000000000000000000000000000000000010779361280000000000000000000000000000000000109681049600000000000000000000000000000000001112801280000000000000000000000000000000000011204034561118265832107957418110648152313311112040345611194452951069680777106693823833121120403456000000000000000000000000000000000011204034560000000000000000000000000000000000)))
 (.node 2 (.node 1 (.leaf 11075584001081145161000000000000000000000000110362624000000000000000000000000000000000001112801280000000000000000000001047149106000011091312640000000000108599967700000000000000112040345600000000000000000000102153909100001120403456104772499200000000000000000000000011204034560000000000000000000000000000000000112040345610737466351062489345102382021000001120403456000000000000000000000000000000000011204034561092497420000000000000000000000000112040345610889668080000000000000000000000001120403456000000000000000000000000000000000011204034560000000000000000000000000000000000112040345600000000000000000000000000000000001120403456000000000000000000000000000000000011204034561073672291102214852910361155650000)
 (.leaf 11204034560000000000000000000000000000000000112040345609739842290000000000000000000000001120403456000000000000000000000000000000000011204034560000000000000000000000000000000000112040345600000000000000000000000000000000001120403456000000000000000000000000000000000011204034560000000000000000000000000000000000112040345600000000000000000000000000000000001120403456106796549600000000000000000000000011204034560000000000000000000000000000000000112040345600000000000000000000000000000000001120403456000000000000000000000000000000000011204034560000000000000000000000000000000000112040345610855543890000000000000000000000001120403456000000000000000000000000000000000011204034561096790824000000000010333634820000))
 (.node 1 (.leaf 11204034560000000000000000000000000000003313112040345600000000000000000000104096416500001120403456000000000000000000001027448777000011204034561094437179000000000000000000003314112040345611047297200000000000000000000000001120403456000000000000000000001049093217000011204034560000000000000000000010411115750000112040345600000000000000000000000000000000001120403456103037339210639271530000000000000011204034560000000000105111607100000000000000112040345600000000001073527076102521717700001120403456000000000000000000001024880371000011204034561082356786105249515810602385260000112040345600000000000000000000104068858700001120403456000000000000000000001038283089000011204034560000000000000000000010389898483315)
 (.leaf 11204034560000000000000000000000000000003316112040345600000000000000000000000000000000001120403456000000000010933520830000000000000011204034560000000000000000000000000000000000112040345600000000001050089305000000000000001120403456000000000010977382760000000000000011204034561006914817000000000000000000000000111817523200000000001036375609106270556300001078015442000000000000000000000000000000000010670942720000000000000000000000000000000000109681049600000000001064834800000000000000001118175232000000000000000000000000000000000011193548800000000000000000000000000000000000112040345600000000000000000000104480408000001120403456000000000000000000000000000000000011204034560000000000000000000000000000000000))))
 (.node 4 (.node 2 (.node 1 (.leaf 11204034560000000000000000000010538113660000112040345600000000000000000000102267135533171114112000000000000000000000001059024175000011120148480000000000000000000010514779910000110362624000000000000000000000104878595100001086324736000000000000000000000000000000000010905190400000000000000000000000000000000000109681049600000000000000000000000000000000001103626240000000000000000000000000000000000010968104960000000000000000000000000000000000111358771211077532760000000000000000000000001120403456107406243711032911681082071002000011204034561092935023000000000000000000000000112040345611093868561049639675105563755700001120010240111690539210385499361041230302000011204034561116069675105236429510578883980000)
 (.leaf 11204034560000000000000000000000000000000000112040345600000000000000000000000000000000001120403456000000000000000000001034926359000010863247360000000000108168248000000000000000109366476800000000000000000000000000000000001108344832000000000010929780560000000000000010345561260000000000000000000000000000000000104687552800000000000000000000000000000000001058315006000000000000000000000000000000000011204034560000000000000000000010289125560000112040345600000000000000000000000000000000001120403456000000000000000000000000000000000011204034560000000000000000000000000000000000112040345600000000000000000000000000000000001120403456000000000000000000000000000000000011204034561097469708101983998410260111170000))
 (.node 1 (.leaf 11204034561090681468000000000000000000000000112040345600000000000000000000000000000000001120403456000000000000000000000000000000000011204034561044819850000000000000000000000000112040345600000000000000000000000000000000001120403456000000000000000000000000000000000011204034560000000000000000000000000000000000112040345600000000000000000000000000000000001120403456104616397300000000000000000000000011204034560000000000000000000000000000000000112040345600000000000000000000000000000000001120403456000000000000000000000000000000000011204034561070168067000000000000000000000000112040345610346825860000000000000000000000001120403456110493881000000000000000000000000011204034560000000000000000000000000000000000)
 (.leaf 11204034560000000000000000000000000000000000112040345600000000000000000000104391767900001120403456000000000000000000000000000000000011204034561087970661101865886810240323390000112040345610998732331025329490103199775433181120403456000000000000000000000000000000331911204034560000000000000000000000000000000000112040345600000000000000000000103768931633201120403456000000000000000000000000000000332110786183730000000000000000000000000000000000112040345600000000000000000000000000000000001120403456000000000000000000000000000000000011204034560000000000000000000000000000000000112040345600000000000000000000000000000000001120403456000000000000000000000000000000000011204034560000000000000000000000000000000000)))
 (.node 2 (.node 1 (.leaf 11204034560000000000000000000000000000000000112040345600000000000000000000101008230900001120403456109239139810817281981033487214332211204034560000000000108396271400000000000000112040345600000000000000000000000000000000001120403456000000000000000000000000000000332311204034561047590372109081484300000000000000112040345600000000000000000000000000000000001120403456000000000000000000000000000000000011204034560000000000000000000000000000000000112040345600000000000000000000000000000000001120403456000000000010746247250000000000000011204034560000000000000000000000000000000000109051904000000000000000000000000000000000001059567274000000000000000000000000000000000011051991040000000000000000000000000000000000)
 (.leaf 11135877120000000000000000000000000000000000111411200000000000000000000000000000000033241120403456000000000000000000001037748216332511204034560000000000000000000000000000000000112040345600000000000000000000000000000033261113587712000000000000000000001030252977000011141120000000000000000000000000000000000000111044198400000000000000000000000000000000001099431936000000000010872294470000000000000011120148480000000000109641308600000000000000110205337600000000001091106662000000000000001099431936000000000000000000000000000000000011163402240000000000000000000000000000000000109681049600000000000000000000000000000000001090519040108586514910746609960000000000000011196170241103480947110339424310245608440000))
 (.node 1 (.leaf 11204034561069276207109632647310464645360000112040345600000000000000000000106845848300001120403456000000000000000000001058796067000011189616640000000000000000000000000000000000112040345600000000000000000000103160145000001120010240000000000000000000000000000000000011051991040000000000109125367200000000000000110048051200000000000000000000000000000000001086125423000000000000000000000000000000000011091312640000000000108898266600000000000000110048051200000000001090079896000000000000001008981770000000000000000000000000000000000010089817700000000000000000000000000000000000100898177000000000000000000000000000000000001090519040000000000000000000000000000000000011193548800000000000000000000000000000000000)
 (.leaf 11204034560000000000000000000000000000000000112040345600000000000000000000000000000000001120403456000000000000000000000000000000000011204034560000000000000000000000000000000000112040345610956919460000000000000000000000001120403456110248192100000000000000000000000011204034560000000000000000000000000000000000112040345600000000000000000000000000000000001120403456000000000000000000000000000000000011204034560000000000000000000000000000000000112040345600000000000000000000101931931100001120403456105814265400000000001031483826000011204034560000000000000000000000000000000000112040345600000000000000000000000000000000001120403456097948178700000000000000000000000011204034560000000000000000000000000000000000)))))
 (.node 8 (.node 4 (.node 2 (.node 1 (.leaf 11204034560000000000000000000000000000000000112040345600000000000000000000000000000000001120403456000000000000000000000000000000000011204034560000000000000000000000000000000000112040345600000000000000000000000000000000001120403456000000000000000000000000000000000011204034560000000000000000000000000000000000112040345600000000000000000000000000000000001120403456000000000000000000000000000000000011204034561103993989000000000000000000000000112040345611012373410000000000000000000000001120403456100637848300000000000000000000000011204034560000000000000000000000000000000000112040345611042810830000000000000000000000001120403456107499946900000000000000000000000011204034560000000000000000000010133104520000)
 (.leaf 11204034560000000000000000000000000000000000112040345600000000000000000000102959753600001120403456000000000000000000001034604404000011204034560000000000000000000000000000000000112040345600000000000000000000000000000000001120403456000000000000000000000000000000000011204034560000000000000000000000000000000000112040345600000000000000000000000000000000001120403456107857768000000000000000000000000011204034560000000000103510054000000000000000112040345600000000000000000000000000000000001120403456000000000010528038580000000000000011204034560000000000109382331300000000000000112040345611100783341040939011000000000033271120403456110371306000000000000000000000332811204034560000000000107614893500000000003329))
 (.node 1 (.leaf 11204034560000000000104182484810299538873330112040345610787273710000000000000000000000001120403456000000000010792774660000000000000011204034561067190522106617446100000000000000112040345610762360841038791528105101096700001114112000109955617710437508731071159339000011091312640000000000000000000000000000003331111280128000000000000000000000000000000000001114898432000000000000000000001033207006333211163402240000000000000000000000000000003333111712665600000000000000000000000000000033341116340224000000000000000000000000000000000011196170240000000000000000000000000000000000111751987200000000000000000000000000000000001112014848000000000000000000000000000000000011175198720000000000000000000010615274050000)
 (.leaf 10968104960000000000000000000000000000000000110991769600000000000000000000105121044700001102053376000000000000000000000000000000000010936647680000000000000000000000000000000000110991769600000000001058806746000000000000001109917696000000000000000000000000000000000011067719680000000000000000000000000000000000110519910400000000000000000000000000000000001106771968000000000000000000000000000000000010863247360000000000000000000000000000000000110362624000000000000000000000000000000000001107558400000000000000000000000000000000000011004805120000000000000000000000000000000000110755840000000000000000000000000000000000001112014848000000000000000000001016234863000010905190400000000000000000000000000000000000)))
 (.node 2 (.node 1 (.leaf 10779361280000000000107662498900000000000000109943193600000000001014350479000000000000001096810496000000000000000000001059688555000010936647680000000000000000000000000000000000108632473600000000000000000000000000000000001077936128000000000000000000000000000000000010779361280000000000000000000000000000000000107793612800000000000000000000000000000000001077936128000000000000000000001021501866000011104419841102286391110171994210446523570000111751987211127822721103547754101804631400001120403456111531087000000000000000000000000011204034561105015615000000000010556304350000107938547000000000000000000000000000000000001120403456107307481200000000000000000000000011204034560000000000000000000000000000000000)
 (.leaf 11204034561103210209105490772110619044270000110913126400000000001097592839000000000000001109131264000000000011071501890000000000000010684222720000000000000000000000000000000000110755840000000000001075955578000000000000001109917696000000000010889577100000000000000010994319360000000000107813661600000000000000103268509100000000000000000000000000000000000960391405000000000000000000000000000000000010426263290000000000000000000000000000000000103219206900000000000000000000000000000000001093546593000000000000000000000000000000000010776541870000000000000000000000000000000000112040345600000000000000000000000000000000001120403456106354803800000000000000000000000011204034561070585031000000000000000000000000))
 (.node 1 (.leaf 11204034561078275347000000000000000000000000112040345610601730160000000000000000000000001120403456108836201000000000000000000000000011204034561061306266000000000000000000000000112040345610660993320000000000000000000000001120403456000000000000000000000000000000000011204034560000000000000000000000000000000000112040345610718136520000000000000000000033351120403456000000000000000000000000000000000011204034560000000000000000000000000000000000112040345610623271770000000000000000000000001120403456000000000000000000001053336091000011204034560000000000000000000000000000000000112040345600000000000000000000000000000000001120403456000000000000000000000995550323000011204034560000000000000000000000000000000000)
 (.leaf 11204034560000000000000000000000000000000000112040345600000000000000000000000000000000001120403456000000000000000000000000000000000011204034561103185920000000000000000000000000112040345610666740440000000000000000000000001120403456109087974600000000000000000000000011204034560000000000000000000000000000000000112040345610929902480000000000000000000000001120403456107003478100000000000000000000000011204034560000000000000000000000000000000000112040345600000000000000000000000000000000001120403456000000000000000000001023113641000011204034561072973503000000000000000000003336112040345600000000000000000000101484316000001120403456000000000000000000001040143676000011204034560000000000000000000000000000000000))))
 (.node 4 (.node 2 (.node 1 (.leaf 11204034560000000000000000000000000000000000112040345600000000000000000000000000000000001120403456000000000000000000000000000000000011204034560000000000000000000000000000000000112040345600000000001083213821000000000000001120403456000000000011022171640000000000000011204034560000000000107468512300000000000000112040345600000000000000000000000000000000001120403456000000000000000000000000000000000011204034561092561238103312754000000000003337112040345600000000000000000000000000000033381120403456000000000000000000001021230788333911204034560000000000108181921510354422130000112040345600000000001087471668000000000000001120403456109567178810605448661016985267000011204034561036193609106251954400000000000000)
 (.leaf 11204034560000000000107017834310357689900000112040345611060189040000000000000000000000001120403456000000000000000000000000000000000011204034560000000000000000000000000000000000112040345600000000000000000000000000000000001069032711000000000000000000000000000000000010863247360000000000000000000000000000000000110362624000000000000000000000000000000000001077936128000000000000000000000000000000000011036262400000000000000000000000000000000000109366476800000000000000000000000000000000001117126656000000000000000000000000000000000011141120000000000000000000000000000000000000112040345600000000000000000000000000000000001114112000000000000000000000000000000000000011120148480000000000000000000000000000000000))
 (.node 1 (.leaf 11156848640000000000000000000000000000000000109943193600000000000000000000000000000000001105199104000000000000000000001033790659000011160780800000000000000000000010406562170000111712665600000000000000000000000000000000001116733440000000000000000000000000000000000011163402240000000000000000000000000000000000110519910400000000000000000000000000000000001105199104000000000000000000000000000000000010905190400000000000000000000000000000000000107793612800000000000000000000000000000000001116078080000000000000000000000000000000000011193548800000000000000000000000000000000000112001024000000000000000000000000000000000001112801280000000000000000000000000000000000010905190400000000000000000000000000000000000)
 (.leaf 11193548801118133355104111349410457503430000112040345611204034560000000000000000000000001120403456111287026210192494261028466554000011204034560000000000000000000000000000000000112040345610890966050000000000000000000000001119617024109455674000000000000000000000000010905190401080557186000000000000000000000000111935488011103696631021504284102139057800001120403456104312515000000000000000000000000011204034561070598621000000000000000000000000111856844800000000000000000000103510511000001077936128000000000000000000000000000000000010863247360000000000106156492110175639430000109366476800000000001091728887000000000000001090519040104646737210900606470000000000000011128012800000000000109398626100000000000000)))
 (.node 2 (.node 1 (.leaf 10905190400000000000106514014500000000000000103723674900000000000000000000000000000000001050640403000000000000000000000000000000000010443049230000000000000000000000000000000000103812030500000000000000000000000000000000001119617024000000000000000000000000000000000011204034560000000000000000000010287553490000112040345610573225000000000000000000000000001120403456105748096000000000000000000000000011204034560000000000000000000000000000000000112040345600000000000000000000000000000000001120403456108395884000000000000000000000000011204034561043607260000000000000000000000000112040345600000000000000000000000000000000001120403456000000000000000000000000000000000011204034560000000000000000000000000000000000)
 (.leaf 11204034561024272659000000000000000000000000112040345600000000000000000000000000000000001120403456000000000000000000000000000000000011204034560000000000000000000000000000000000112040345600000000000000000000000000000000001120403456000000000000000000000000000000000011204034560000000000000000000000000000000000112040345600000000000000000000000000000000001120403456000000000000000000000000000000000011204034560000000000000000000010501218920000112040345611073496770000000000000000000000001120403456110268506000000000000000000000000011204034561056124707000000000000000000000000112040345600000000000000000000000000000000001120403456000000000000000000000000000000000011204034560000000000000000000010198413130000))
 (.node 1 (.leaf 11204034561090520589000000000010312872520000112040345600000000000000000000101815152600001120403456000000000000000000001016496685000011204034560000000000000000000010180398350000112040345600000000000000000000000000000000001120403456107650277910332214920000000000334011204034561075766427099692901800000000003341112040345600000000000000000000000000000000001120403456000000000000000000000000000000000011204034560000000000000000000010426362960000110677196800000000000000000000103117896800001120403456107419588710431938691052089895334211204034560000000000000000000010591894640000112040345600000000000000000000000000000000001120403456103091670500000000000000000000000011204034560000000000000000000000000000000000)
 (.leaf 11204034560000000000000000000000000000000000112040345600000000001102045564000000000000001120403456000000000011015714501049087562000011204034561099035310103436234310185812113343112040345600000000000000000000000000000000001120403456108753330410778677610000000000334411204034561070166289000000000000000000000000112040345600000000000000000000000000000000001120403456000000000000000000000000000000000011204034560000000000000000000000000000000000112040345610726305601058523211000000000000001120403456000000000010388452150000000000000011204034560000000000000000000010358807450000112040345600000000000000000000000000000033451120403456000000000010453010870000000000000011204034561074149108000000000000000000000000))))))
 (.node 16 (.node 8 (.node 4 (.node 2 (.node 1 (.leaf 11204034560000000000000000000000000000000000112040345600000000000000000000000000000000001120403456000000000000000000001041779368000010841081720000000000000000000000000000000000109366476800000000000000000000000000000000001100480512000000000000000000000000000000000011036262400000000000000000000000000000000000107793612800000000000000000000000000000000001110441984000000000000000000000000000000000011179130880000000000000000000000000000000000111751987200000000000000000000105198639400001109131264000000000000000000001041563379000010779361280000000000000000000010302834790000109051904010905190400000000000000000000000001107558400110334151000000000000000000000000011128012800000000000000000000010692965360000)
 (.leaf 10905190400000000000000000000000000000000000112040345600000000000000000000000000000033461120403456000000000000000000000000000000000011112284160000000000104638825110255528510000110362624000000000000000000000000000000000001096810496000000000000000000000000000000000011004805120000000000000000000010374182020000110519910400000000000000000000000000000000001106771968000000000010858755260000000000000010936647680000000000106214541200000000000000111044198400000000001091177336000000000000001090814025000000000000000000000000000000000010835346430000000000000000000000000000000000112040345600000000000000000000000000000000001120403456000000000000000000001041163108000011204034561062611517000000000000000000000000))
 (.node 1 (.leaf 11204034560000000000000000000000000000000000112040345600000000000000000000000000000000001120403456107438311600000000000000000000000011204034560000000000000000000000000000000000112040345600000000000000000000000000000000001120403456106553446900000000000000000000000011204034560000000000000000000000000000000000112040345600000000000000000000000000000000001120403456103232142800000000000000000000000011204034560000000000000000000000000000000000112040345600000000000000000000000000000000001120403456000000000000000000000000000000000011204034560000000000000000000000000000000000112040345600000000000000000000000000000000001120403456000000000000000000000000000000000011204034560000000000000000000000000000000000)
 (.leaf 11204034560000000000000000000000000000000000112040345610958305040000000000000000000000001120403456110072809300000000000000000000334711204034560000000000000000000000000000000000112040345600000000000000000000000000000000001120403456000000000000000000000000000000000011204034561056784723000000000000000000000000112040345600000000000000000000000000000000001120403456108295259300000000000000000000000011204034560000000000000000000000000000000000112040345600000000000000000000000000000033481120403456108096141210293828650000000000334911204034560000000000000000000010641586200000110913126400000000000000000000000000000000001120403456105782237710619239531055720999000011204034560000000000000000000000000000000000)))
 (.node 2 (.node 1 (.leaf 11204034560000000000000000000000000000000000112040345610494127130000000000000000000000001120403456000000000010677003490000000000000011204034561032818973109176495810458640720000112040345600000000000000000000000000000000001120403456107265042400000000000000000000000011204034561109721499104999199710644308143350112040345600000000000000000000000000000000001120403456000000000000000000000000000000000011204034560000000000000000000000000000000000112040345610796067150000000000000000000000001120403456000000000000000000000000000000000011204034560000000000106107334800000000003351112040345600000000000976715828000000000000001120403456000000000000000000000000000000000011204034561024484186102506105400000000000000)
 (.leaf 11204034560000000000000000000000000000000000112040345600000000000000000000000000000000001110441984000000000000000000001037380576000011112284160000000000000000000000000000000000111673344000000000000000000000000000000000001118175232000000000000000000000000000000000010994319360000000000000000000000000000000000111607808000000000000000000000000000000000001120403456000000000000000000000000000000000010435004220000000000000000000000000000000000109366476810933105350000000000000000000033521120010240109924822400000000000000000000335311204034561082996812000000000000000000000000112001024000000000000000000000000000000000001114898432000000000000000000000000000000000010795894810000000000000000000000000000000000))
 (.node 1 (.leaf 11067719680000000000000000000010333550150000107793612800000000000000000000000000000000001107558400000000000000000000000000000000000011160780800000000000105988048800000000000000110991769600000000001087311027000000000000001090519040000000000010831880261014316423000010471828870000000000000000000000000000000000104180666200000000000000000000000000000000001120403456000000000000000000000000000000000011204034560000000000000000000010438624220000112040345600000000000000000000105649073700001120403456000000000000000000000000000000000011204034560000000000000000000000000000000000112040345600000000000000000000000000000000001120403456000000000000000000000000000000000011204034560000000000000000000000000000000000)
 (.leaf 11204034560000000000000000000000000000000000112040345600000000000000000000000000000000001120403456103466433200000000000000000000000011204034560000000000000000000000000000000000112040345600000000000000000000000000000000001120403456000000000000000000000000000000000011204034560000000000000000000000000000000000112040345600000000000000000000000000000000001120403456000000000000000000000000000000000011204034560000000000000000000000000000000000112040345600000000000000000000000000000000001120403456000000000000000000000000000000000011204034560000000000000000000000000000000000112040345600000000000000000000000000000000001120403456000000000000000000000000000000000011204034561086728140104326768910495553710000))))
 (.node 4 (.node 2 (.node 1 (.leaf 11204034560000000000000000000000000000000000112040345600000000000000000000000000000000001120403456109198975700000000000000000000000011204034561109042130000000000000000000003354112040345600000000000000000000000000000000001120403456000000000000000000000000000000000011204034560000000000000000000000000000000000112040345610913031650000000000104405338600001120403456000000000000000000000985581593000011204034560000000000000000000010296960040000112040345600000000000000000000000000000000001120403456000000000000000000000000000000000011204034560000000000000000000000000000000000112040345600000000000000000000101702526800001120403456000000000000000000000000000000000011204034560000000000000000000000000000000000)
 (.leaf 11204034560000000000000000000000000000000000112040345600000000000000000000000000000000001120403456103998848110445427570000000000000011204034560000000000000000000000000000000000112040345600000000000000000000000000000000001120403456000000000010494752590000000000000011204034561037289497000000000000000000000000112040345600000000000000000000000000000033551120403456000000000000000000000000000000000011204034561041102421000000000000000000000000112040345610849899510000000000000000000000001120403456109274947810793185710000000000000011204034560000000000000000000000000000000000112040345600000000001024282591000000000000001120403456000000000000000000000000000000000011204034560000000000000000000000000000003356))
 (.node 1 (.leaf 11204034560000000000000000000000000000000000112040345600000000000000000000000000000000001120403456000000000000000000000000000000000011204034560000000000000000000000000000000000112040345600000000000000000000000000000000001120403456000000000000000000000000000000000010778761080000000000000000000000000000000000111044198400000000000000000000000000000000001103626240000000000000000000000000000000000010863247360000000000000000000000000000000000109051904000000000000000000000102506436100001113587712000000000000000000000000000000000010603318290000000000000000000000000000000000109051904000000000000000000000000000000000001108344832110834483200000000000000000000000011120148480000000000000000000010514730020000)
 (.leaf 11163402240000000000000000000000000000000000111607808000000000000000000000000000000000001096810496000000000000000000000000000000000010936647680000000000000000000000000000000000109943193600000000001084123775000000000000001105199104000000000010950185840000000000000010430664960000000000000000000000000000000000112040345600000000000000000000105212829500001120403456000000000000000000001060734911335711204034560000000000000000000010414656300000112040345610596741120000000000000000000000001120403456105096141800000000000000000000000011204034560000000000000000000000000000000000112040345600000000000000000000000000000000001120403456000000000000000000000000000000000011204034560000000000000000000000000000000000)))
 (.node 2 (.node 1 (.leaf 11204034561097098794000000000000000000000000112040345600000000000000000000000000000000001120403456000000000000000000000000000000000011204034560000000000000000000000000000000000112040345600000000000000000000000000000000001120403456000000000000000000000000000000000011204034560000000000000000000000000000000000112040345600000000000000000000000000000000001120403456000000000000000000000000000000000011204034560000000000000000000000000000000000112040345600000000000000000000000000000000001120403456000000000000000000000000000000000011204034560000000000000000000000000000000000112040345600000000000000000000000000000000001120403456000000000000000000000000000000000011204034560000000000000000000000000000000000)
 (.leaf 11204034560000000000000000000000000000000000112040345600000000000000000000000000000000001120403456107719005800000000000000000000000011204034561108334167000000000000000000003358112040345611073596420000000000000000000000001120403456000000000000000000000000000000000011204034560000000000000000000000000000000000112040345600000000000000000000000000000000001120403456000000000000000000000000000000000011204034560000000000000000000000000000000000112040345610581590281047589500101864812300001120403456000000000000000000000000000000000011204034560000000000000000000010326524510000112040345600000000000000000000000000000000001120403456000000000000000000000000000000000011200102400000000000000000000010738111140000))
 (.node 1 (.leaf 11204034560000000000000000000000000000000000112040345600000000000000000000000000000000001120403456000000000000000000000000000000000011204034561079921565107096183900000000000000112040345610726536031071504582000000000000001120403456000000000000000000000000000000000011204034560000000000000000000000000000000000112040345600000000001085763119000000000000001120403456000000000000000000000000000000000011204034560000000000000000000000000000000000112040345600000000001054890944102658926600001120403456000000000000000000000000000000000011204034560000000000000000000000000000003359112040345609999660970000000000000000000000001120403456000000000000000000000000000000000011204034561069200047104930413100000000000000)
 (.leaf 11204034561090847446108745363300000000003360112040345600000000000000000000000000000000001120403456000000000010802413170000000000000011204034560000000000000000000000000000003361112040345600000000000000000000000000000000001120403456000000000000000000000000000000000011204034560000000000000000000000000000000000112040345600000000000000000000000000000000001120403456000000000000000000000000000000000011204034560000000000000000000000000000000000112040345600000000000000000000000000000000001090519040000000000000000000001036489055000010089817700000000000000000000000000000000000109051904000000000000000000000000000000000001090519040000000000000000000000000000000000011051991040000000000000000000010583422760000)))))
 (.node 8 (.node 4 (.node 2 (.node 1 (.leaf 10519372820000000000000000000000000000000000100898177000000000000000000000000000000000001099431936000000000000000000000000000000000010779361280000000000000000000000000000000000110519910400000000000000000000000000000000001090519040000000000000000000000000000000000010343562090000000000000000000000000000000000107793612800000000000000000000000000000000001109131264000000000010722260030000000000000011051991040000000000106838821400000000000000109681049600000000001093916846000000000000001077936128000000000010669319520000000000000010089817700000000000000000000000000000000000100898177000000000000000000000000000000000001120403456000000000000000000001029305346000011204034560000000000000000000010460206230000)
 (.leaf 11204034560000000000000000000000000000000000112040345610842938330000000000000000000000001120403456102163313300000000000000000000000011204034560000000000000000000010545970280000112040345600000000000000000000000000000000001120403456000000000000000000000000000000000011204034560000000000000000000000000000000000112040345600000000000000000000000000000000001120403456000000000000000000000000000000000011204034560000000000000000000000000000000000112040345600000000000000000000000000000000001120403456111109740200000000000000000000000011204034560000000000000000000000000000000000112040345610886993120000000000000000000000001120403456000000000000000000000000000000000011204034561087677590000000000000000000000000))
 (.node 1 (.leaf 11204034560000000000000000000000000000000000112040345600000000000000000000000000000000001120403456107478401610487370610000000000000011204034560000000000000000000000000000000000112040345600000000000000000000000000000000001120403456000000000000000000001054118185336211204034560000000000000000000010459571140000112040345600000000000000000000105103655833631120403456000000000000000000001049153060000011204034560000000000000000000000000000000000112040345600000000000000000000000000000000001120403456000000000000000000000000000000000011204034561057306477103210748510441902360000112040345610493988550000000000000000000000001120403456000000000000000000000000000000000011204034560000000000000000000000000000000000)
 (.leaf 11204034560000000000000000000000000000000000112040345610708160451069546681102801159000001120403456106868065810643650380000000000000011204034560000000000107506261000000000000000112040345600000000001072942390000000000033641120403456000000000010796083971040916057000011204034560000000000000000000000000000000000112040345610981878791041220869103921920533651120403456000000000000000000001039391924000011204034560000000000000000000000000000000000112040345600000000001086119844000000000000001120403456000000000000000000000000000000336611204034560000000000000000000000000000000000112040345600000000000000000000000000000000001120403456103432355410689141801060243898000010779361280000000000000000000000000000000000)))
 (.node 2 (.node 1 (.leaf 10936647680000000000000000000000000000000000109366476800000000000000000000000000000000001100480512000000000000000000000000000000000010863247360000000000000000000000000000000000111122841600000000000000000000000000000000001100480512000000000000000000001023170958000010685897090000000000000000000000000000000000100898177000000000000000000000000000000000001056761335000000000000000000000000000000000010863247360000000000000000000000000000000000111673344000000000000000000000103200624600001114112000000000000000000000001032586992000010994319360000000000000000000000000000000000109051904000000000000000000000000000000000001008981770000000000000000000000000000000000010089817700000000000000000000000000000000000)
 (.leaf 11204034560000000000000000000010525166023367112040345600000000000000000000103844304800001120403456104715684900000000001035249285000011204034561053926959000000000000000000000000112040345610593608140000000000000000000000001120403456107309262100000000000000000000000011204034561089589175098166846310179826440000112040345610557947660000000000000000000000001120403456106616995600000000000000000000000011204034561081633860000000000000000000000000112040345600000000000000000000000000000000001120403456000000000000000000000000000000000011204034560000000000000000000000000000000000112040345600000000000000000000000000000000001120403456000000000000000000000000000000000011204034560000000000000000000000000000000000))
 (.node 1 (.leaf 11204034560000000000000000000000000000000000112040345600000000000000000000000000000000001120403456000000000000000000000000000000000011204034561103634972101198824710202256010000112040345600000000000000000000000000000000001120403456109744912500000000000000000000000011204034561089533160000000000000000000000000112040345600000000000000000000000000000000001120403456000000000000000000000000000000000011204034561094337583000000000000000000000000112040345610570072390000000000102509955100001120403456000000000000000000001024231590336811204034560000000000000000000000000000000000112040345600000000000000000000102510161200001120403456000000000000000000000000000000000011204034560000000000000000000010268330080000)
 (.leaf 11204034560000000000000000000000000000000000112040345600000000000000000000000000000000001120403456000000000000000000000000000000000011204034560000000000000000000000000000000000112040345600000000000000000000000000000000001120403456000000000000000000000000000000000011204034560000000000000000000000000000000000112040345600000000000000000000102045837300001120403456000000000010568371010000000000000011204034561083734525107991667800000000000000112040345610696714200000000000000000000000001120403456108129634900000000001020194546000011204034560000000000000000000000000000000000112040345600000000000000000000000000000000001120403456000000000010966963061024976236000011204034560000000000000000000000000000000000))))
 (.node 4 (.node 2 (.node 1 (.leaf 11204034561085555920101231037000000000003369112040345600000000000000000000000000000000001120403456000000000000000000000000000000000011204034560000000000000000000010265484230000110362624000000000000000000000000000000000001013713750000000000000000000000000000000000010388750110000000000000000000000000000000000106866210200000000000000000000000000000000001106771968000000000000000000000000000000000011156848640000000000000000000000000000000000110991769600000000000000000000000000000000001008981770000000000000000000000000000000000010779361280000000000000000000000000000000000111358771200000000000000000000000000000000001086324736000000000000000000000000000000000010679369910000000000000000000000000000000000)
 (.leaf 10612917710000000000000000000000000000000000107793612800000000000000000000000000000000001077936128000000000000000000000000000000000010725654060000000000000000000000000000000000112001024000000000000000000000103373685200001117126656000000000000000000001014907795000010863247360000000000000000000010112002870000109943193610473807911051055673000000000033701086324736000000000000000000000000000000000010089817700000000000000000000000000000000000100898177000000000000000000000000000000000001117913088000000000000000000000000000000000011204034560000000000000000000010502265650000112040345600000000000000000000105683480700001120403456103121547400000000000000000000000011204034561033175724000000000010216457500000))
 (.node 1 (.leaf 11204034560000000000000000000000000000000000112040345610706440620000000000102774688800001120403456000000000000000000000000000000000011204034560000000000000000000000000000000000112040345600000000000000000000000000000000001120403456000000000000000000000000000000000011204034560000000000000000000000000000000000112040345600000000000000000000000000000000001120403456000000000000000000000000000000000011204034560000000000000000000000000000000000112040345600000000000000000000000000000000001120403456000000000000000000000000000000000011204034561078033797105198848610612015060000112040345610916207010000000000000000000000001120403456110153588510132767381033389213000011204034561075941569000000000010314699850000)
 (.leaf 11204034561107141093000000000000000000000000112040345600000000000000000000000000000000001120403456108303927900000000000000000000000011204034560000000000000000000000000000000000112040345600000000000000000000000000000000001120403456000000000000000000000000000000000011204034560000000000000000000000000000000000112040345600000000000000000000103219441133711058102556000000000000000000000000000000000011204034560000000000000000000000000000000000112040345600000000000000000000000000000000001120403456000000000000000000000000000000000011204034560000000000000000000000000000000000112040345600000000000000000000000000000000001120403456000000000000000000000000000000000011204034560000000000000000000000000000000000)))
 (.node 2 (.node 1 (.leaf 11204034560000000000000000000000000000000000112040345600000000000000000000000000000000001120403456105613957200000000000000000000000011204034560000000000108756100700000000000000112040345600000000000000000000000000000000001120403456000000000000000000000000000000000011204034560000000000000000000000000000000000112040345600000000001068264902104484116400001120403456000000000010809648350000000000000011204034561074638549107758129000000000000000112040345610937086031082596629000000000000001120403456000000000000000000001051515763000011204034561094151061105011279310606087040000112040345600000000000000000000000000000000001120403456000000000000000000000000000000000011204034560000000000109041439200000000000000)
 (.leaf 11204034560000000000000000000000000000000000112040345600000000000000000000000000000033721120403456000000000000000000000000000000000011204034560000000000000000000000000000000000112040345600000000000000000000000000000000001120403456000000000000000000000000000000000011204034560000000000000000000010644745080000108053772900000000000000000000105119923400001086324736000000000000000000000000000000000010905190400000000000000000000000000000000000108632473600000000000000000000000000000000001090519040000000000000000000000000000000000011135877120000000000000000000010582216860000107793612800000000000000000000000000000000001057924567000000000000000000000000000000000010936647680000000000000000000000000000000000))
 (.node 1 (.leaf 11204034560000000000000000000000000000000000112040345600000000000000000000000000000000001114112000000000000000000000000000000000000011091312640000000000000000000000000000000000111201484800000000000000000000000000000000001008981770000000000000000000000000000000000011067719680000000000000000000010384597980000105722141700000000000000000000000000000000001120403456000000000000000000000000000000000011204034560000000000000000000010555735050000112040345600000000000000000000000000000000001120403456000000000000000000000000000000000011204034561075120374000000000010639730310000112040345600000000000000000000000000000000001120403456000000000000000000000000000000000011204034561067690173000000000009909662810000)
 (.leaf 11204034560931542973000000000000000000000000112040345600000000000000000000000000000000001120403456000000000000000000000000000000000011204034560000000000000000000000000000000000112040345610954545100000000000000000000000001120403456104895033300000000000000000000000011204034561120303291104865317510571641460000112040345611096102030000000000000000000000001120403456110097369900000000001042870863000011204034560000000000000000000000000000000000112040345611001075570000000000000000000000001120403456107384893800000000001048616823000011204034560000000000000000000010457269440000112040345600000000000000000000000000000000001059771168000000000000000000000000000000000010797312900000000000000000000010258864570000))))))))
 (.node 64 (.node 32 (.node 16 (.node 8 (.node 4 (.node 2 (.node 1 (.leaf 11204034560000000000000000000000000000000000112040345600000000000000000000000000000000001120403456000000000000000000001041050776000011204034560000000000000000000000000000000000112040345600000000000000000000000000000000001120403456000000000000000000000000000000000011204034560000000000000000000000000000000000112040345600000000000000000000000000000000001120403456000000000000000000000000000000000011204034560000000000000000000000000000000000112040345600000000001049783960000000000000001120403456000000000000000000000000000000000011204034560000000000000000000000000000000000112040345600000000000000000000000000000000001120403456000000000010504349160000000000000011204034560000000000000000000010304293110000)
 (.leaf 11204034560000000000000000000010167870870000112040345611067174930000000000000000000000001120403456000000000000000000001068839106000011204034560000000000000000000000000000000000112040345610749350911043958910104293867700001120403456000000000000000000000000000000000011204034560000000000109413432000000000000000112040345600000000000000000000000000000000001120403456000000000000000000000000000000000011204034560000000000000000000000000000000000112040345600000000000000000000000000000000001099431936000000000000000000000000000000000011004805121047995441000000000000000000000000112040345610636403961065566287102853591300001117519872000000000000000000001034727543337311204034560000000000000000000000000000000000))
 (.node 1 (.leaf 11204034560000000000000000000010409657880000112040345600000000000000000000102518477700001120010240000000000000000000001022130253000011036262400000000000000000000010093608330000112040345600000000000000000000000000000000001120403456000000000000000000000000000000000011179130880000000000000000000010186242860000106573917600000000000000000000000000000000001063610281000000000000000000000000000000000010769556260000000000000000000000000000000000112040345600000000000000000000000000000000001120403456000000000000000000001065482241337411204034560000000000000000000000000000000000112040345600000000000000000000000000000000001120403456000000000000000000000000000000000011204034561060079785000000000010384078120000)
 (.leaf 11204034561056845825109452386600000000000000112040345600000000000000000000000000000000001120403456109215711310877875001084267127337511204034561100961871000000000000000000000000112040345610880944890000000000000000000000001120403456000000000000000000000000000000000011204034560000000000000000000000000000000000112040345600000000000000000000101273158700001120403456000000000000000000000000000000000011204034560000000000000000000000000000000000112040345600000000000000000000000000000000001120403456000000000000000000000000000000000011204034561059233928000000000000000000000000112040345610787565250000000000000000000000001120403456000000000000000000001025624480000011204034560000000000000000000010289845610000)))
 (.node 2 (.node 1 (.leaf 11204034561098213349000000000010503087240000112040345600000000000000000000102668095700001120403456000000000000000000000000000000000011204034560000000000000000000010190972210000112040345610607179230000000000000000000000001120403456000000000000000000000000000000000010531221560000000000000000000000000000000000112040345600000000000000000000000000000000001120403456000000000000000000000000000000000011204034560000000000000000000000000000000000112040345610650789921033530193000000000000001120403456000000000000000000000000000000000011204034560000000000000000000000000000000000112040345610707896461081055851000000000000001120403456000000000010421872360000000000000011204034560000000000000000000000000000000000)
 (.leaf 11204034560000000000000000000010306933710000112040345600000000000000000000000000000000001120403456000000000000000000001038402742000011204034560000000000109128586410294080020000112040345610942649150000000000000000000000001120403456000000000000000000000000000000000011204034560000000000000000000010350943400000112040345611003606781057875611000000000000001120403456000000000010802127960000000000337611204034560000000000000000000000000000000000112040345600000000000000000000000000000000001120403456000000000000000000000000000000000011204034560000000000000000000000000000000000112040345600000000000000000000000000000000000932651061000000000000000000000000000000000010905190400000000000000000000010268551740000))
 (.node 1 (.leaf 11193548800000000000000000000010467199550000106581735800000000000000000000000000000000001058034273000000000000000000000000000000000011204034560000000000000000000010334946730000112040345600000000000000000000000000000000001120403456000000000000000000000000000000000011204034560000000000000000000000000000000000112040345600000000000000000000000000000000001120403456000000000000000000000000000000000011204034560000000000000000000000000000000000112040345600000000000000000000000000000000001120403456000000000000000000000000000000000011204034560000000000000000000000000000000000107531468800000000000000000000104485926200001120403456000000000000000000000000000000000010863247360000000000000000000000000000000000)
 (.leaf 10994319360000000000000000000000000000000000110913126400000000001060170734000000000000001103626240000000000010517670260000000000000011204034560000000000000000000000000000000000112040345600000000000000000000105082616200001120403456000000000000000000001066122238337711204034560000000000000000000010444473973378112040345600000000000000000000000000000000001120403456000000000000000000000000000000000011204034560000000000105407892700000000000000112040345600000000001059731171000000000033791120403456000000000000000000000000000000000011204034561080140897000000000000000000000000112040345600000000000000000000000000000000001120403456000000000000000000001045000454000011204034560000000000000000000000000000000000))))
 (.node 4 (.node 2 (.node 1 (.leaf 11204034560000000000000000000010137496710000112040345600000000000000000000000000000000001120403456000000000000000000000000000000000011204034560000000000000000000000000000000000112040345600000000000000000000000000000000001120403456000000000000000000000000000000000011204034560000000000000000000000000000000000112040345600000000000000000000000000000000001120403456000000000000000000000000000000000011204034561093198765000000000000000000000000112040345600000000000000000000000000000000001120403456000000000000000000000000000000000011204034560000000000000000000000000000000000112040345600000000000000000000000000000000001120403456000000000000000000000000000000000010825822420000000000000000000010457867470000)
 (.leaf 11189616640000000000000000000010295480750000112040345600000000000000000000000000000000001120403456000000000000000000000000000000000011204034560000000000000000000000000000000000112040345600000000000000000000000000000000001120403456000000000000000000000000000000000011204034560000000000000000000000000000000000112040345600000000000000000000000000000000001120403456000000000010241483740000000000000011204034560000000000105012957000000000000000112040345610308852980000000000000000000000001120403456000000000010928933310000000000000011204034560000000000000000000000000000000000112040345600000000000000000000000000000000001120403456000000000000000000000000000000000011204034560000000000000000000000000000000000))
 (.node 1 (.leaf 11204034561049317184107997288200000000000000112040345610987089671094173747000000000000001120403456000000000000000000000000000000338011204034560000000000000000000000000000000000112040345600000000000000000000000000000000001120403456000000000000000000000000000000000011204034560000000000000000000000000000000000112040345600000000000000000000000000000000001120403456000000000000000000000000000000000011204034561040502267000000000010371157720000109366476800000000000000000000000000000000001120403456000000000000000000001038498998000011204034561052859257000000000000000000000000112040345600000000000000000000000000000000001077936128000000000000000000000000000000000010089817700000000000000000000000000000000000)
 (.leaf 11204034560000000000000000000010626147590000112040345600000000000000000000000000000000001120403456000000000000000000000000000000000011204034560000000000000000000000000000000000112040345600000000000000000000000000000000001120403456000000000000000000000000000000000011179130880000000000000000000000000000000000109681049600000000000000000000000000000000001106771968000000000000000000000000000000000011200102400000000000000000000010692885390000112040345600000000000000000000000000000000001120403456000000000000000000000000000000000010968104960000000000000000000000000000000000108632473600000000000000000000000000000000001083080421000000000000000000001015356801000010780953020000000000000000000000000000000000)))
 (.node 2 (.node 1 (.leaf 10936647680000000000000000000000000000000000108632473600000000000000000000000000000000001037139710000000000000000000000000000000000010576923370000000000000000000000000000000000105352729200000000000000000000000000000000001105199104000000000000000000001034334594000011204034560000000000000000000000000000000000112040345600000000000000000000000000000000001120403456000000000000000000001027484526000011204034560000000000000000000010189965170000112040345600000000000000000000106947270000001120403456000000000000000000000000000000000011204034560000000000000000000000000000000000112040345600000000000000000000103441448400001120403456000000000000000000000000000000000011204034561108110805107424723810727316340000)
 (.leaf 11204034560000000000107156498010525525780000112040345610779400620000000000104339481900001120403456000000000000000000000000000000000011204034560000000000000000000000000000000000112040345600000000000000000000000000000000001120403456000000000000000000000000000000000011204034560000000000000000000000000000000000112040345600000000000000000000000000000000001120403456000000000000000000000000000000000011204034560000000000000000000000000000000000112040345600000000000000000000000000000000001120403456000000000000000000001019027113000011204034560000000000000000000000000000000000112040345600000000000000000000000000000000001120403456000000000000000000000000000000000011204034560000000000000000000000000000000000))
 (.node 1 (.leaf 11204034560000000000000000000000000000000000112040345611134363051028470184103344208800001120403456110995871900000000000000000000000011204034560000000000000000000000000000000000112040345600000000000000000000103108741733811120403456000000000000000000000000000000000011204034560000000000000000000010501183150000112040345600000000000000000000000000000033821120403456000000000000000000000000000000000011204034561042276088000000000000000000000000112040345600000000000000000000000000000000001120403456000000000000000000000000000000000011204034560000000000000000000000000000000000112040345600000000000000000000000000000000001120403456000000000000000000000000000000000011204034560973640632108337467200000000000000)
 (.leaf 11204034561062262584000000000000000000000000112040345610776684010000000000102707892500001120403456109370841300000000000000000000000011204034560000000000109206086600000000000000112040345610814487531016189262000000000000001120403456000000000000000000000000000000000011204034560000000000000000000000000000000000112040345600000000000000000000000000000000001120403456097275962700000000000000000000000011204034561057387025105870105000000000000000112040345600000000000000000000000000000000001120403456000000000000000000000000000000000011204034560000000000000000000000000000000000112040345600000000000000000000000000000000001120403456000000000000000000001039812010000011200102400000000000000000000000000000000000)))))
 (.node 8 (.node 4 (.node 2 (.node 1 (.leaf 11204034560000000000000000000010393851890000112040345600000000000000000000000000000000001073991427000000000000000000000000000000000010905190400000000000000000000000000000000000111673344000000000000000000000000000000000001120010240000000000000000000000000000000000010936647680000000000000000000000000000000000111935488000000000000000000000103112529800001120403456000000000000000000000000000000000011204034560000000000000000000000000000000000112040345600000000000000000000000000000000001120403456000000000000000000001015660452000011204034560000000000000000000000000000000000112040345600000000000000000000000000000000001090519040000000000000000000001018312634000011067719680000000000000000000010474020640000)
 (.leaf 10089817700000000000000000000000000000000000112040345600000000001032107485102355977900001093664768000000000000000000001025849628000010863247360000000000000000000010213447140000108632473600000000000000000000106000153900001058354231000000000000000000000000000000000010333938950000000000000000000000000000000000104100846900000000000000000000000000000000001120403456000000000000000000000000000000000011204034560000000000000000000000000000000000112040345600000000000000000000106868628400001120403456000000000000000000001036909077000011204034560000000000000000000010443552210000112040345600000000000000000000103735260000001120403456000000000000000000001060415095000011204034560000000000000000000010336531830000))
 (.node 1 (.leaf 11204034560000000000000000000010548548210000112040345600000000000000000000106606930400001120403456000000000000000000000000000000000011204034560000000000000000000000000000000000112040345600000000001027584347000000000000001120403456000000000010537400271041254032000011204034560000000000104804584000000000000000112040345600000000000000000000000000000000001120403456000000000000000000000000000000000011204034560000000000000000000000000000000000112040345600000000000000000000000000000000001120403456000000000000000000000000000000000011204034560000000000000000000000000000000000112040345600000000000000000000000000000000001120403456109123691100000000000000000000000011204034560000000000000000000000000000000000)
 (.leaf 11204034560000000000000000000000000000000000112040345610755165770000000000000000000000001120403456000000000000000000001018328189000011204034560000000000000000000000000000000000112040345600000000000000000000000000000000001120403456106777925200000000000000000000000011204034560000000000000000000010462428893383112040345600000000000000000000000000000000001120403456000000000000000000000000000000000011204034560000000000000000000000000000000000112040345600000000000000000000000000000000001120403456000000000000000000000000000000000011204034560000000000000000000000000000000000112040345600000000000000000000000000000000001120403456000000000000000000000000000000000011204034560000000000000000000000000000000000)))
 (.node 2 (.node 1 (.leaf 11204034560000000000000000000000000000003384112040345600000000000000000000000000000033851120403456000000000010442541890000000000000011204034560000000000000000000010413703940000112040345600000000000000000000000000000000001120403456108494279310158134530000000000000011204034560000000000000000000000000000000000112040345609887379791075692175000000000000001120403456110345225010255442381032676971000011204034561074373318000000000000000000000000112040345600000000000000000000000000000000001120403456000000000000000000000000000000000011204034560000000000000000000000000000000000112040345600000000000000000000000000000000001120403456000000000000000000000000000000000011204034560000000000000000000000000000000000)
 (.leaf 11204034561081089058109068838510811743340000112040345600000000000000000000000000000000001120403456000000000000000000000000000000000011204034560000000000000000000000000000000000112040345600000000000000000000000000000000001120403456000000000000000000000000000000000011141120000000000000000000000010659362540000110048051200000000000000000000103662890000001120403456000000000000000000001048390374000011204034560000000000000000000000000000000000112040345600000000000000000000000000000000001070107460000000000000000000000000000000000011128012800000000000000000000000000000000000111961702400000000000000000000000000000000001120403456000000000000000000000000000000000011083448320000000000000000000000000000000000))
 (.node 1 (.leaf 10994319360000000000000000000000000000000000112040345600000000000000000000000000000000001120403456000000000000000000000000000000000011204034560000000000000000000010403280530000112040345600000000000000000000000000000000001118175232000000000000000000001020235609000011004805120000000000000000000010201966590000110362624000000000000000000000000000000000001120403456000000000000000000000000000000000011204034560000000000000000000010741260680000112040345600000000000000000000104659446700001120403456000000000000000000001057023320000011204034560000000000000000000010489504720000112040345600000000000000000000106752725633861120403456000000000000000000000000000000000011204034560000000000000000000010554299740000)
 (.leaf 11204034561076444143109055616010378473800000112040345600000000000000000000106291176200001120403456000000000010764496671052648964000011204034560000000000000000000000000000000000112040345610647994170000000000000000000000001120403456000000000000000000000000000000338711204034560000000000000000000000000000000000112040345600000000000000000000000000000000001120403456000000000000000000000000000000338811204034560000000000000000000010223387940000112040345600000000000000000000000000000000001120403456000000000000000000000000000000000011204034560000000000000000000000000000000000112040345610953685920000000000103491104100001120403456110678025100000000001030042222000011204034560000000000000000000000000000000000))))
 (.node 4 (.node 2 (.node 1 (.leaf 11204034560000000000000000000000000000000000112040345600000000000000000000103357207700001120403456000000000000000000000000000000000011204034560000000000000000000000000000000000112040345600000000000000000000000000000033891120403456104867481800000000000000000000000011204034560000000000000000000010479235080000112040345600000000001068618901104601678300001120403456000000000000000000000000000000000011204034560000000000000000000000000000000000112040345600000000001055260043000000000033901120403456000000000000000000000000000000000011204034561057822628107355140300000000000000112040345600000000001104397940103857773500001120403456000000000010417644500000000000000011204034560000000000109147471200000000000000)
 (.leaf 11204034561050179902000000000000000000000000112040345610904691780000000000000000000000001120403456108854555700000000000000000000000011204034560000000000000000000000000000000000112040345600000000000000000000000000000000001120403456000000000000000000000000000000000011204034560000000000000000000000000000000000112040345600000000000000000000000000000000001120403456000000000000000000000000000000000011204034560000000000000000000000000000003391112040345600000000000000000000000000000000001120403456000000000000000000000000000000000011204034560000000000000000000000000000000000112040345600000000000000000000000000000000001120403456000000000000000000000000000000000011204034560000000000000000000000000000000000))
 (.node 1 (.leaf 11204034560000000000000000000000000000000000112040345600000000000000000000000000000000001120403456000000000000000000001038691505000011204034561054660425103335571000000000000000111961702400000000000000000000000000000000001081487697000000000000000000000000000000000011051991040000000000000000000000000000000000112040345600000000000000000000000000000000001120403456000000000000000000000000000000000011204034560000000000000000000000000000000000112001024000000000000000000000000000000000001120403456000000000000000000000000000000000011204034560000000000000000000000000000000000112040345600000000000000000000000000000000001114898432000000000000000000000000000000000011204034560000000000000000000000000000000000)
 (.leaf 11204034560000000000000000000000000000000000112040345600000000000000000000102559801800001112801280000000000000000000001020687768000011141120000000000000108252008300000000000000110519910400000000000000000000000000000000001096810496000000000000000000000000000000000010599190090000000000000000000000000000000000111712665600000000000000000000000000000000001120403456000000000000000000000000000000000011204034560000000000000000000010190261980000112040345600000000000000000000102726092500001120403456000000000000000000001058287279339211204034560000000000000000000000000000003393112040345600000000000000000000000000000000001120403456000000000000000000000000000000000011204034561083462218107990409510578036370000)))
 (.node 2 (.node 1 (.leaf 11204034560000000000000000000000000000000000112040345600000000000000000000000000000000001120403456110323468210324296071061601307000011204034560000000000000000000010438371500000112040345600000000000000000000000000000000001120403456000000000000000000000000000000000011204034560000000000000000000010419512320000112040345600000000000000000000000000000000001120403456000000000000000000001018728188000011204034560000000000000000000000000000000000112040345600000000000000000000000000000000001120403456000000000000000000000000000000000011204034560000000000000000000000000000000000112040345600000000000000000000000000000000001120403456000000000000000000000000000000000011204034560000000000000000000000000000003394)
 (.leaf 11204034561046385768000000000010208000933395112040345610833051140000000000105420643800001120403456000000000000000000001052035990000011204034561089470080000000000000000000000000112040345610675251690000000000000000000000001120403456000000000000000000000000000000000011204034561057717502000000000000000000000000112040345600000000000000000000000000000000001120403456000000000000000000000000000000000010822748630000000000000000000000000000000000112040345600000000000000000000000000000000001120403456000000000000000000000000000000000011204034560000000000000000000000000000000000112040345600000000001040892035000000000000001120403456000000000010666207350000000000000011204034560000000000000000000000000000000000))
 (.node 1 (.leaf 11204034561080775244105761556400000000000000112040345600000000001074353354000000000000001120403456000000000010567565710000000000000011204034560000000000000000000000000000000000112040345610728145811069899003000000000033961120403456000000000000000000000000000000000011204034560000000000000000000000000000000000112040345600000000000000000000102346251300001120403456000000000000000000000000000000000011204034560000000000000000000000000000000000112040345600000000000000000000000000000000001120403456000000000000000000000000000000000011204034560000000000000000000000000000000000112001024010727615821052156258105504893900001120403456000000000000000000001032981738000011204034560000000000000000000000000000000000)
 (.leaf 11141120000000000000000000000000000000000000100898177000000000000000000000000000000000001027679964000000000000000000000000000000000010936647680000000000000000000000000000000000112001024000000000000000000000000000000000001120403456000000000000000000000000000000000011204034560000000000000000000000000000000000112040345600000000000000000000104225137800001120403456000000000000000000000000000000000011204034560979481787000000000000000000000000112040345600000000000000000000000000000000001120403456000000000000000000000000000000000011204034560000000000000000000000000000000000108632473600000000000000000000102582755700001120403456000000000000000000001020815275000011204034560000000000000000000000000000000000))))))
 (.node 16 (.node 8 (.node 4 (.node 2 (.node 1 (.leaf 11204034560000000000000000000000000000000000112040345600000000000000000000102726291100001116078080000000000000000000000000000000000010089817700000000000000000000000000000000000109366476800000000000000000000000000000000001100480512000000000010781278080000000000000010699550390000000000000000000000000000000000100898177000000000000000000000000000000000001063971277000000000000000000000000000000000011204034560000000000000000000010742086063397112040345600000000000000000000103670715100001120403456000000000000000000001051015953000011204034560000000000106035025010510346210000112040345600000000000000000000100839512200001120403456000000000000000000000000000000000011204034560000000000000000000000000000000000)
 (.leaf 11204034560000000000000000000000000000000000112040345600000000000000000000000000000000001120403456000000000000000000000000000000000011204034560000000000000000000000000000000000112040345600000000000000000000000000000000001120403456111121827200000000000000000000000011204034561108302126000000000000000000000000112040345610939298960000000000000000000000001120403456000000000000000000000000000000000011204034560000000000000000000000000000000000112040345609794989670000000000000000000000001120403456000000000000000000000000000000000011204034560000000000000000000000000000000000112040345600000000000000000000000000000000001120403456000000000000000000000000000000000011204034561090200845000000000000000000000000))
 (.node 1 (.leaf 11204034561090719747000000000000000000000000112040345610767629010000000000000000000000001120403456000000000000000000000000000000000011204034560000000000000000000010386813970000112040345600000000000000000000000000000033981120403456000000000000000000000000000000000011204034561060383352000000000010323696180000104490970900000000000000000000000000000000001105199104000000000000000000000000000000000011204034561107991937103353019310392864930000112040345610753165751062177289000000000000001120403456000000000010973237740000000000000011204034560000000000000000000000000000000000112040345610621929251056964608000000000000001120403456000000000000000000000000000000000011204034560000000000000000000000000000000000)
 (.leaf 11204034560000000000000000000000000000000000112040345600000000000000000000000000000000001120403456000000000000000000000000000000000011204034560000000000108408581700000000000000112040345610602242870000000000104144485300001120403456000000000000000000000000000000000011204034560000000000000000000000000000000000112040345600000000000000000000000000000000001120403456000000000000000000000000000000000011204034561061614917000000000000000000000000108632473600000000000000000000102361200500001086324736000000000010647995680000000000000011148984320000000000106908111310398338590000111961702400000000000000000000098890452500001120403456109106895810521529021078922698000011204034560000000000000000000000000000000000)))
 (.node 2 (.node 1 (.leaf 11204034560000000000000000000000000000000000100898177000000000000000000000000000000000001077936128000000000000000000000000000000000010831476770000000000000000000000000000000000110913126400000000000000000000000000000000001120403456000000000000000000000000000000000011204034560000000000000000000000000000000000112040345600000000000000000000000000000000001120403456000000000010408316371042254239000011204034560000000000000000000000000000000000112040345600000000000000000000000000000000001120403456000000000000000000000000000000000011204034560000000000000000000000000000000000112040345600000000000000000000000000000000001120403456000000000000000000000000000000000011204034560000000000000000000000000000000000)
 (.leaf 11204034560000000000000000000000000000000000112040345600000000000000000000000000000000001120403456000000000000000000000000000000000011204034560000000000000000000000000000000000110677196810569787680000000000000000000000001008981770000000000000000000000000000000000010779361280000000000000000000000000000000000107793612800000000000000000000000000000000001120403456000000000000000000000000000000000011204034560000000000000000000000000000000000111817523200000000000000000000000000000000001017303753000000000000000000000000000000000010089817700000000000000000000000000000000000100898177000000000000000000000000000000000001107558400000000000010835525110000000000000011036262400000000000108129282900000000000000))
 (.node 1 (.leaf 11004805120000000000000000000000000000000000109943193600000000001082625150000000000000001106771968000000000000000000000000000000000010089817700000000000000000000000000000000000104518639800000000000000000000000000000000001071416250000000000000000000000000000000000011204034560000000000000000000000000000000000112040345600000000000000000000107201007233991120403456000000000000000000000000000000000011204034560000000000000000000010509023703400112040345600000000000000000000102858839600001120403456000000000000000000000000000000000011204034560000000000000000000000000000000000112040345600000000001046045996000000000000001120403456000000000000000000000000000000000011204034560000000000000000000000000000000000)
 (.leaf 11204034560000000000000000000000000000000000112040345600000000000000000000000000000000001120403456000000000000000000000000000000000011204034560000000000000000000000000000000000112040345600000000000000000000000000000000001120403456000000000000000000000000000000000011204034560000000000000000000000000000000000112040345600000000000000000000000000000000001120403456000000000000000000000000000000000011204034560000000000000000000000000000000000112040345600000000000000000000000000000034011120403456000000000000000000000000000000000011204034561092505978000000000000000000000000112040345610518852390000000000000000000000001120403456107714396700000000000000000000000011204034560000000000000000000000000000003402))))
 (.node 4 (.node 2 (.node 1 (.leaf 11204034560000000000000000000010202587050000112040345600000000000000000000000000000000001120403456000000000000000000000000000000000011204034560000000000000000000000000000000000112040345600000000000000000000000000000000001107558400000000000000000000000000000000000011204034560000000000000000000000000000000000112040345600000000000000000000000000000000001120403456000000000000000000000000000000000011204034560000000000000000000000000000000000112040345600000000000000000000000000000000001120403456000000000000000000000000000000000011204034560000000000000000000000000000000000112040345611014566300000000000000000000000001120403456108506682400000000000000000000000011204034561066615173103346308410486484700000)
 (.leaf 11204034560000000000106983776600000000000000112040345600000000000000000000000000000000001120403456000000000000000000000000000000000011204034560000000000000000000000000000000000112040345600000000000000000000000000000000001120403456000000000000000000000000000000340311204034560000000000000000000000000000003404112040345600000000000000000000000000000034051120403456000000000000000000000000000000340611204034561052212160000000000000000000000000112040345600000000000000000000000000000000001120403456000000000000000000000000000000000011204034560000000000000000000000000000000000112040345600000000000000000000000000000000001120403456000000000000000000000000000000000011204034560000000000000000000000000000000000))
 (.node 1 (.leaf 11204034561051758067102696694610377430810000112040345600000000001009089144000000000000001120403456000000000010631319130000000000000011204034560000000000000000000000000000000000104230058300000000000000000000000000000000001039580191000000000000000000000000000000000010730574810000000000000000000000000000000000111489843200000000000000000000000000000000001102053376000000000000000000000000000000000011204034560000000000000000000000000000000000112040345600000000000000000000000000000000001120403456000000000000000000000000000000000011204034560000000000000000000000000000000000112040345600000000000000000000000000000000001120403456000000000000000000000000000000000011204034560000000000000000000010367628480000)
 (.leaf 11204034560000000000000000000000000000000000112040345600000000000000000000000000000000001120403456000000000000000000000000000000000011204034560000000000000000000000000000000000112040345600000000000000000000000000000000001120403456000000000000000000000000000000000011204034560000000000000000000000000000000000112040345600000000000000000000000000000000001120010240000000000000000000000000000000000011020533760000000000000000000000000000000000107504528800000000000000000000000000000000001120403456000000000000000000000000000000000011204034560000000000000000000000000000000000112040345600000000000000000000000000000000001107558400000000000000000000000000000000000010096207540000000000000000000000000000000000)))
 (.node 2 (.node 1 (.leaf 10779361280000000000107635110100000000000000109681049600000000000000000000000000000000001059907516000000000000000000000000000000000011128012800000000000000000000000000000000000111411200000000000000000000000000000000000001106771968000000000000000000001023506525000010655210720000000000000000000000000000000000111961702400000000000000000000000000000000001120403456000000000000000000000000000000000011204034560000000000000000000010599250190000112040345600000000000000000000000000000000001120403456106779760600000000001025438201000011204034561025035553000000000010335876430000112040345600000000000000000000000000000000001120403456000000000000000000000000000000000011204034560000000000106059016410427747693407)
 (.leaf 11204034560000000000000000000010200168193408112040345600000000000000000000000000000000001120403456000000000000000000000000000000000011204034560000000000000000000000000000000000112040345600000000001054954698000000000000001120403456111998503910550452941072424764000011204034560000000000000000000000000000000000112040345600000000000000000000000000000000001120403456000000000000000000000000000000000011204034560000000000000000000000000000000000112040345600000000000000000000000000000000001120403456000000000000000000000000000000000011204034561100414057000000000000000000000000112040345600000000000000000000000000000000001120403456000000000000000000000000000000000011204034560000000000000000000000000000000000))
 (.node 1 (.leaf 11204034560000000000000000000000000000000000112040345600000000000000000000000000000000001120403456111782670911002613070000000000000011204034560000000000000000000000000000000000112040345600000000000000000000000000000000001120403456000000000000000000000000000000000011204034560000000000000000000000000000000000112040345610521279721016242949102330617200001120403456000000000000000000000000000000000011204034560000000000000000000000000000000000112040345600000000000000000000000000000034091120403456000000000000000000000000000000341011204034560000000000000000000010112821013411112040345600000000000000000000000000000000001120403456000000000000000000000000000000000011204034560000000000000000000010446986530000)
 (.leaf 11204034560000000000000000000000000000000000112040345600000000000000000000000000000000001109917696000000000000000000000000000000000010389821170000000000000000000000000000000000107168032400000000000000000000000000000000001120403456000000000000000000000000000000000011204034560000000000000000000000000000000000112040345600000000000000000000103239898000001120403456108526643609986604271046846657341211135877120000000000000000000000000000000000112040345600000000000000000000000000000000001120403456000000000000000000000000000000000011204034560000000000000000000000000000000000112040345600000000000000000000000000000000001120403456000000000000000000000000000000000011204034560000000000000000000000000000000000)))))
 (.node 8 (.node 4 (.node 2 (.node 1 (.leaf 11204034560000000000000000000000000000000000112040345600000000000000000000000000000000001120403456000000000000000000000000000000000011204034560000000000000000000000000000000000112040345600000000000000000000000000000000001120403456000000000000000000000000000000000011204034560000000000000000000000000000000000112040345600000000000000000000000000000000001120403456000000000000000000000000000000000011204034560000000000000000000000000000000000112040345600000000000000000000000000000000001111228416000000000000000000000000000000000010829529560000000000000000000000000000000000112040345600000000000000000000102514298100001120403456000000000010562935190000000000000011204034560000000000000000000000000000000000)
 (.leaf 11204034560000000000000000000010252683520000111961702400000000000000000000000000000034131077936128000000000000000000001036299115000010905190400000000000107401613100000000000000110048051200000000000000000000000000000000001058357838000000000000000000000000000000000010959770880000000000000000000000000000000000110446169300000000000000000000000000000000001120403456000000000000000000000000000000000011204034560000000000105951810000000000000000112040345600000000000000000000000000000000001120403456000000000010727007980000000000000011204034560000000000000000000000000000000000112040345600000000000000000000105928367400001120403456000000000000000000000000000000000011204034560000000000000000000000000000000000))
 (.node 1 (.leaf 11204034560000000000000000000000000000000000112040345600000000001045240689000000000000001120403456000000000000000000000000000000000011204034561120403456000000000000000000000000112040345611204034560000000000000000000000001120403456112040345600000000000000000000000011204034560000000000000000000000000000000000112040345600000000000000000000000000000000001120403456000000000000000000000000000000000011204034560000000000000000000000000000000000112040345600000000000000000000000000000000001120403456000000000000000000000000000000341411204034560000000000000000000000000000000000112040345610639573680000000000000000000000001120403456000000000000000000000000000000000011204034560000000000000000000000000000000000)
 (.leaf 11204034560000000000000000000000000000000000112040345600000000000000000000000000000000001120403456000000000000000000000000000000000011204034560000000000000000000000000000000000112040345600000000000000000000000000000000001120403456000000000000000000000000000000000011204034560000000000000000000000000000000000112040345600000000001079988401000000000034151120403456000000000010769068460000000000000011204034560000000000000000000000000000000000112040345600000000000000000000000000000000001120403456000000000000000000000000000000000011204034560000000000000000000000000000003416112040345600000000000000000000000000000000001120403456000000000000000000001029524190341711204034560000000000000000000000000000003418)))
 (.node 2 (.node 1 (.leaf 11204034560000000000000000000000000000000000112040345600000000000000000000000000000000001120403456000000000000000000000000000000000011204034561041244491000000000000000000000000112040345610571913860000000000102214025600001086324736000000000000000000000000000000000010822312000000000000000000000000000000000000112040345610485593571032684621102810793200001120403456103372856600000000000000000000000011204034560000000000000000000010192987180000112040345611082166891032684621103143079634191120403456000000000000000000000000000000342011200102400000000000106784379400000000000000105233641200000000000000000000000000000000001120403456000000000000000000000000000000000011204034560000000000000000000000000000000000)
 (.leaf 11204034560000000000000000000000000000000000112040345600000000000000000000000000000000001120403456000000000000000000000000000000000011204034560000000000000000000000000000000000112040345600000000000000000000000000000000001120403456000000000000000000000000000000000011204034560000000000000000000000000000000000112040345600000000000000000000000000000000001120403456000000000000000000000000000000000011204034560000000000000000000000000000000000112040345600000000000000000000000000000000001120403456000000000000000000000000000000000011204034560000000000000000000000000000000000112040345600000000000000000000000000000000001120403456000000000000000000000000000000000011204034560000000000000000000000000000000000))
 (.node 1 (.leaf 11204034560000000000000000000010163510880000112040345600000000000000000000000000000000001120403456000000000000000000001039304970000011204034560000000000000000000000000000003421110205337600000000000000000000102322929600001100480512000000000010704652340000000000000011204034560000000000105683039000000000000000112001024000000000000000000000000000000000001100480512000000000000000000000000000000000010738174050000000000000000000000000000000000100898177000000000000000000000000000000000001008981770000000000000000000000000000000000010621526430000000000000000000000000000000000104346700200000000000000000000000000000000001056298150000000000000000000000000000000000011204034560000000000000000000000000000000000)
 (.leaf 11204034560000000000000000000010658416490000112040345600000000001069756396000000000000001120403456000000000010773044660000000000000011204034560000000000107172688010438303250000112040345600000000000000000000103618647400001120403456000000000000000000001018313697000011204034560000000000000000000010196830640000112040345600000000000000000000000000000000001120403456000000000000000000000000000000000011204034560000000000000000000000000000000000112040345600000000000000000000000000000000001120403456000000000000000000000000000000000011204034561120383304100504219610416420610000112040345600000000000000000000000000000000001120403456000000000000000000000000000000000011204034560000000000000000000000000000000000))))
 (.node 4 (.node 2 (.node 1 (.leaf 11204034560000000000000000000000000000000000112040345600000000000000000000000000000000001120403456000000000000000000000000000000000011204034561087765880000000000000000000000000112040345600000000000000000000000000000000001120403456000000000000000000000000000000000011204034560000000000000000000010605808320000112040345600000000000000000000000000000000001120403456000000000000000000000000000000000011196170240000000000105459902100000000000000112040345600000000001050824147000000000000001120403456000000000000000000000000000000000011204034560000000000000000000000000000000000112040345610806654540000000000000000000000001120403456107286956811156011350000000000000011204034560000000000105028056500000000000000)
 (.leaf 11204034561049309231104130139900000000000000112040345610770148070000000000000000000000001120403456000000000000000000000000000000000011204034560000000000000000000000000000000000112040345600000000000000000000000000000000001120403456000000000000000000000000000000000011204034560000000000000000000000000000000000112040345600000000000000000000000000000000001120403456000000000000000000000000000000000011204034560000000000000000000000000000003422112040345600000000000000000000000000000034231120403456000000000000000000000000000000000011204034560000000000000000000000000000000000112040345610821938291074102954000000000000001112014848000000000010662239541064383420000010089817700000000000000000000000000000000000))
 (.node 1 (.leaf 11189616640000000000000000000000000000000000112040345600000000000000000000000000000000001120403456000000000000000000000000000000000011204034560000000000000000000000000000000000112040345600000000000000000000000000000000001120403456000000000000000000001055468519000011204034560000000000107268737610496536310000112040345600000000001073987191000000000000001077936128000000000000000000000000000000000011204034560000000000000000000000000000000000112040345600000000000000000000000000000000001120403456000000000000000000000000000000000011204034560000000000000000000000000000000000112040345600000000000000000000000000000000001120403456000000000000000000000000000000000011204034560000000000000000000000000000000000)
 (.leaf 11204034560000000000000000000000000000000000112040345600000000000000000000000000000000001120403456000000000000000000000000000000000011204034560000000000000000000010363398640000112040345600000000000000000000104179250500001120403456000000000000000000000000000000000011204034560000000000000000000010453029560000112040345600000000000000000000000000000000001120403456000000000000000000000000000000000011204034560000000000000000000000000000000000112040345600000000000000000000000000000000001120403456000000000000000000001050302736000011067719680000000000000000000000000000000000110913126400000000000000000000000000000000001108344832000000000009784338150000000000000010779361280000000000000000000000000000000000)))
 (.node 2 (.node 1 (.leaf 10727394690000000000000000000010395387420000108632473600000000000000000000000000000000001071831235000000000000000000000000000000000010589771360000000000000000000000000000000000100898177000000000000000000000000000000000001055822281000000000000000000000000000000000011204034560000000000107958239209899197270000112040345600000000000000000000104277698634241120403456000000000000000000001027512415000011204034560000000000000000000000000000000000112040345610653544660000000000000000000000001120403456000000000000000000000000000000000011204034560000000000000000000000000000000000112040345600000000000000000000000000000000001120403456000000000000000000000000000000000011204034561083051352000000000000000000000000)
 (.leaf 11204034561120403456000000000000000000000000112040345611159508100000000000000000000000001120403456000000000000000000000000000000000011204034560000000000000000000000000000000000112040345600000000000000000000000000000000001120403456000000000000000000000000000000342511204034560000000000000000000000000000003426112040345600000000000000000000000000000000001120403456000000000000000000000000000000000011204034560000000000000000000000000000000000112040345600000000000000000000000000000000001120403456000000000000000000000000000000000011204034560000000000000000000000000000000000112040345600000000000000000000000000000000001120403456000000000000000000000000000000000011204034560000000000000000000000000000000000))
 (.node 1 (.leaf 11204034560000000000107543590300000000000000112040345600000000000000000000000000000000001120403456110782073900000000000000000000000011204034560000000000000000000000000000000000112040345600000000000000000000000000000000001120403456000000000000000000000000000000000011204034560000000000000000000000000000000000112040345600000000000000000000000000000000001120403456000000000000000000000000000000342711204034560000000000000000000000000000003428112040345600000000000000000000000000000000001120403456000000000010765901761039869541000011204034560000000000000000000010219381740000112040345600000000000000000000000000000000001120403456000000000000000000000000000000342911204034560000000000000000000000000000000000)
 (.leaf 11204034560000000000000000000000000000000000112040345600000000000000000000000000000000001120403456000000000000000000000000000000000011204034560000000000000000000010407810060000112040345600000000000000000000000000000000001120403456000000000000000000000000000000000011204034560000000000000000000000000000000000112040345600000000000000000000000000000000001120403456000000000000000000000000000000000011204034560000000000000000000000000000000000112040345600000000000000000000000000000000001120403456000000000000000000000000000000000011204034560000000000000000000000000000000000112040345600000000000000000000000000000000001120403456000000000000000000000000000000000011204034560000000000000000000000000000000000)))))))
 (.node 32 (.node 16 (.node 8 (.node 4 (.node 2 (.node 1 (.leaf 11204034560000000000000000000000000000000000112040345600000000000000000000000000000000001075061771000000000000000000000000000000000011036262400000000000000000000000000000000000108920135700000000000000000000000000000000001120403456000000000000000000001047100644000011204034561076365156106587666500000000000000112040345600000000000000000000000000000000001120403456000000000000000000001028706940000011204034560000000000000000000000000000000000112040345600000000001080737923000000000000001120403456000000000010668312890000000000000011204034561117549698104759621110486604353430112040345611204034560000000000000000000000001120403456000000000000000000000000000000000011204034560000000000000000000000000000000000)
 (.leaf 11204034560000000000000000000000000000000000112040345600000000000000000000000000000000001120403456000000000000000000000000000000000011204034560000000000000000000000000000003431112040345600000000000000000000000000000034321120403456000000000000000000000000000000343311204034560000000000000000000000000000000000112040345600000000000000000000000000000000001120403456000000000000000000001046052250000011204034561053799788000000000000000000000000111712665610584915860000000000106633031500001120403456000000000000000000000000000000000011204034561076750218105743437000000000000000112040345610868306820000000000000000000000001120403456000000000000000000000000000000000011204034560000000000000000000000000000000000))
 (.node 1 (.leaf 11204034560000000000000000000000000000000000112040345600000000001042462382000000000000001120403456000000000000000000000000000000000011204034560000000000000000000000000000000000112040345600000000000000000000000000000000001120403456000000000000000000000000000000000011204034560000000000000000000000000000000000112040345600000000000000000000000000000034341120403456000000000000000000001016053252343511204034560000000000000000000000000000003436112040345600000000000000000000000000000034371120403456000000000000000000000000000000343811204034560000000000000000000000000000003439112040345600000000000000000000000000000000001120010240000000000010469989420000000000000011036262400000000000000000000010163874170000)
 (.leaf 11204034561053582959000000000010267784370000112040345600000000001065272685106594028000001120403456000000000000000000000000000000000011204034560000000000000000000010234515383440112001024000000000000980151802105476632600001120403456000000000000000000000000000000000011204034560000000000000000000000000000000000112040345600000000000000000000000000000000001120403456000000000000000000000000000000000011204034560000000000000000000000000000000000112040345600000000000000000000103515066800001120403456000000000000000000000000000000000011204034560000000000000000000000000000000000112040345600000000000000000000000000000000001120403456000000000000000000000000000000000011204034560000000000000000000000000000000000)))
 (.node 2 (.node 1 (.leaf 11204034560000000000000000000000000000000000112040345600000000000000000000000000000000001120403456000000000000000000000000000000000011204034560000000000000000000000000000000000112040345600000000000000000000000000000000001120403456000000000000000000000000000000344111204034560000000000000000000000000000000000112001024000000000000000000000000000000000001114898432000000000000000000000000000000344210372214490000000000000000000000000000000000109051904000000000000000000000000000000000001090519040000000000000000000000000000000000010654558090000000000000000000000000000000000106697943200000000000000000000000000000000001008981770000000000000000000000000000000000010089817700000000000000000000000000000000000)
 (.leaf 10408740500000000000000000000000000000000000110913126400000000000000000000000000000000001120403456000000000000000000000000000000000011204034560000000000000000000000000000000000112040345600000000000000000000000000000000001120403456110560966900000000000000000000000011204034561110397286000000000000000000000000112040345611106160211052703195000000000000001120403456000000000010817030321037274123000011204034560000000000000000000010248238820000112040345600000000000000000000103201806800001120403456000000000000000000000000000000000011204034560000000000000000000000000000000000112040345600000000000000000000000000000000001120403456000000000000000000001045382175000011204034560000000000000000000000000000000000))
 (.node 1 (.leaf 11204034560000000000000000000000000000000000112040345610930751400000000000000000000000001120403456000000000000000000000000000000000011204034560000000000000000000000000000000000112040345600000000000000000000000000000000001120403456000000000000000000000000000000000011204034560000000000000000000000000000003443112040345600000000000000000000000000000034441120403456000000000000000000000000000000344511204034560000000000000000000000000000000000112040345600000000000000000000000000000000001120403456106421867400000000000000000000000011200102401064541954000000000010654153350000112001024000000000000000000000000000000000001120403456000000000000000000000000000000000011204034560000000000000000000000000000000000)
 (.leaf 11204034560000000000000000000000000000000000112040345600000000000000000000000000000000001120403456000000000000000000000000000000000011204034560000000000000000000000000000000000112040345600000000000000000000000000000000001120403456000000000000000000000000000000000011204034560000000000106308158100000000000000112040345600000000000000000000000000000000001120403456000000000000000000000000000000000011204034560000000000000000000000000000000000112040345600000000000000000000000000000000001120403456000000000000000000000000000000344611204034560000000000000000000000000000003447112040345600000000000000000000000000000034481120403456000000000000000000000000000000344911204034560000000000000000000000000000003450))))
 (.node 4 (.node 2 (.node 1 (.leaf 11204034560000000000000000000000000000000000112040345600000000000000000000101554728600001120403456000000000000000000000000000000000011020533760000000000000000000000000000000000112040345600000000000000000000000000000000001120403456000000000000000000000000000000000010813936610000000000000000000000000000000000107605489900000000000000000000000000000000001086324736000000000000000000000000000000000011204034560000000000000000000000000000000000112040345600000000000000000000000000000000001120403456000000000000000000000000000000000011204034560000000000000000000000000000000000112040345600000000000000000000000000000000001120403456000000000000000000000000000000000011204034560000000000000000000000000000000000)
 (.leaf 11204034560000000000000000000000000000000000112040345600000000000000000000000000000000001120403456000000000000000000000000000000000011204034560000000000000000000000000000000000112040345600000000000000000000000000000000001120403456000000000000000000000000000000000011204034560000000000000000000000000000000000112040345600000000000000000000000000000034511120403456000000000000000000000000000000000011204034560000000000000000000000000000000000112040345600000000000000000000000000000000001120403456000000000000000000000000000000000011204034560000000000000000000010431616990000112040345600000000000000000000000000000000001120403456000000000000000000000992542442000011204034560000000000000000000000000000000000))
 (.node 1 (.leaf 10190970090000000000000000000000000000000000109051904000000000000000000000103073690300001058261051000000000000000000000000000000000011204034560000000000000000000000000000000000112040345610767817971069262307000000000000001120403456111249651300000000000000000000000011204034561078900029000000000000000000000000112040345600000000000000000000000000000000001120403456000000000000000000000000000000000011204034560000000000000000000000000000000000112040345600000000000000000000000000000000001120403456000000000000000000000000000000000011204034560000000000000000000000000000000000112040345600000000000000000000000000000000001120403456000000000000000000000000000000000011204034560000000000000000000000000000000000)
 (.leaf 11204034560000000000000000000000000000003452112040345600000000000000000000000000000034531120403456000000000000000000000000000000345411204034560000000000000000000000000000000000112040345600000000000000000000000000000000001120403456000000000000000000001048608876000011204034560000000000000000000000000000000000112040345600000000000000000000000000000000001120403456000000000000000000000000000000000011204034560000000000000000000000000000000000112040345600000000000000000000000000000000001038388472000000000000000000000000000000000011204034560000000000000000000000000000000000112040345600000000000000000000000000000000001120403456000000000000000000000000000000000011204034560000000000000000000000000000000000)))
 (.node 2 (.node 1 (.leaf 11204034561077284795103005395400000000003455112040345600000000000000000000000000000000001120403456109539445500000000000000000000000011204034560000000000000000000000000000000000112040345600000000000000000000000000000000001120403456000000000000000000000000000000000011204034560000000000000000000000000000003456112040345600000000000000000000000000000034571120403456000000000000000000000000000000345811204034560000000000000000000010164228553459112040345600000000000000000000000000000034601120403456000000000010939913991041943145000011204034560000000000000000000000000000000000112040345600000000000000000000000000000000001120403456000000000000000000000000000000000011104419840000000000000000000010445655980000)
 (.leaf 11108083570000000000000000000010348373520000106477097900000000000000000000000000000000001075186888000000000000000000000000000000000010402998660000000000000000000000000000000000105800336900000000000000000000000000000000001119617024000000000000000000000000000000000011204034560000000000000000000000000000000000112040345600000000000000000000000000000000001120403456000000000000000000000000000000000011204034560000000000000000000000000000000000112040345600000000000000000000000000000000001120403456000000000000000000000000000000000011204034560000000000000000000000000000000000112040345600000000000000000000000000000000001120403456000000000000000000000000000000000011204034560000000000000000000000000000000000))
 (.node 1 (.leaf 11204034560000000000000000000000000000000000112040345600000000000000000000000000000000001120403456000000000000000000000000000000000011204034560000000000000000000000000000000000112040345600000000000000000000000000000000001120403456000000000000000000000000000000000011204034560000000000000000000000000000000000112040345600000000000000000000000000000000001120403456000000000000000000000000000000000011204034560000000000000000000010247053120000112040345600000000000000000000103780729300001120403456000000000000000000000000000000000011204034560000000000000000000000000000000000110913126400000000000000000000000000000000001072033232000000000000000000000000000000000011083448320000000000108571991710487473150000)
 (.leaf 10905190400000000000000000000000000000000000107793612800000000000000000000000000000000001044131783000000000000000000000000000000000010541416740000000000000000000000000000000000110755840000000000001071569175000000000000001120403456000000000000000000000000000000000011204034560000000000107703686900000000000000112040345610896805671081907714000000000000001120403456108761950110937953160000000000000011204034560000000000000000000000000000000000112040345600000000000000000000000000000000001120403456000000000000000000001038089479000011204034560000000000000000000000000000000000112040345600000000000000000000000000000000001120403456000000000000000000000000000000000011204034560000000000000000000000000000000000)))))
 (.node 8 (.node 4 (.node 2 (.node 1 (.leaf 11204034560000000000000000000000000000000000112040345600000000000000000000000000000000001120403456000000000000000000000000000000000011204034560000000000000000000000000000003461112040345600000000000000000000000000000000001120403456000000000000000000000000000000346211204034560000000000000000000000000000000000112040345600000000000000000000000000000034631120403456000000000000000000000000000000000011204034560000000000000000000000000000000000112040345600000000000000000000103281831100001120403456000000000000000000000000000000000011204034560000000000000000000000000000000000112040345600000000000000000000000000000000001120403456000000000000000000000000000000000010482094510000000000000000000000000000000000)
 (.leaf 11204034560000000000104689827800000000000000112040345600000000000000000000000000000000001120403456000000000000000000000000000000000011204034560000000000000000000000000000000000112040345600000000000000000000000000000000001120403456000000000000000000000000000000000011204034560000000000000000000000000000000000112040345600000000000000000000000000000000001120403456000000000000000000000000000000346411204034560000000000000000000000000000000000112040345600000000000000000000104119055234651120403456000000000000000000000000000000000011204034560000000000000000000000000000003466112040345600000000000000000000000000000000001120403456000000000010951437840000000000000011204034560000000000000000000000000000000000))
 (.node 1 (.leaf 11204034560000000000000000000000000000000000112040345600000000000000000000000000000000001120403456000000000000000000000000000000000011204034560000000000000000000010570875680000109366476800000000000000000000000000000000001107558400000000000000000000000000000000000010593909790000000000000000000000000000000000106209219500000000000000000000000000000000001086324736000000000000000000000000000000000010491145490000000000000000000000000000000000111411200000000000000000000000000000000000001120403456000000000000000000000000000000000011204034560000000000000000000000000000000000112040345600000000000000000000000000000000001120403456000000000000000000000000000000000011204034560000000000000000000000000000000000)
 (.leaf 11204034560000000000000000000000000000000000112040345600000000000000000000000000000000001120403456000000000000000000000000000000000011204034560000000000000000000000000000000000112040345600000000000000000000000000000000001120403456000000000000000000000000000000000011204034560000000000000000000000000000000000112040345600000000000000000000000000000000001120403456000000000000000000000000000000000011204034560000000000000000000000000000000000112040345600000000000000000000000000000034671120403456000000000000000000001032061529346811204034560000000000000000000000000000003469112040345600000000000000000000000000000000001120403456000000000000000000000000000000000011204034560000000000000000000000000000000000)))
 (.node 2 (.node 1 (.leaf 11135877120000000000000000000000000000000000107684493800000000000000000000000000000000001056020621000000000000000000000000000000000011004805120000000000000000000000000000000000111856844800000000000000000000102405572100001106771968000000000000000000000000000000000011036262400000000000000000000000000000000000109051904000000000000000000000000000000000001075495295000000000000000000000000000000000011036262400000000000106769615400000000000000112040345600000000001067059459000000000000001120403456000000000000000000000000000000000011204034561095092378108865970500000000000000112040345610740181570000000000000000000000001120403456000000000000000000000000000000000011204034560000000000000000000000000000000000)
 (.leaf 11204034560000000000000000000000000000000000112040345600000000000000000000000000000000001120403456000000000000000000000000000000000011204034560000000000000000000000000000000000112040345600000000000000000000000000000000001120403456000000000000000000000000000000000011204034560000000000000000000000000000000000112040345600000000000000000000000000000000001120403456000000000000000000000000000000347011204034560000000000000000000000000000003471112040345600000000000000000000000000000000001120403456000000000000000000000000000000000011204034560000000000000000000000000000003472112040345600000000000000000000101019474100001120403456000000000000000000001040220852000011204034560000000000000000000000000000000000))
 (.node 1 (.leaf 11204034560000000000000000000000000000000000112040345600000000000000000000000000000000001120403456000000000000000000000000000000000011204034560000000000000000000000000000000000112040345600000000000000000000000000000000001120403456000000000000000000000000000000000011204034560000000000000000000000000000000000112040345600000000000000000000000000000000001120403456000000000000000000000000000000000011204034560000000000000000000010129497293473106906215500000000000000000000000000000000001120403456000000000000000000000000000000000011204034560000000000000000000000000000000000112040345610162193270000000000105630310200001077936128000000000000000000000000000000000011020533760000000000000000000000000000000000)
 (.leaf 11204034560000000000000000000000000000003474112040345600000000000000000000000000000000001120403456000000000000000000000000000000000011204034560000000000000000000000000000000000112040345600000000000000000000000000000000001120403456000000000000000000000000000000000011204034560000000000000000000000000000000000112040345600000000000000000000000000000000001120403456000000000000000000000000000000000011204034560000000000000000000000000000000000112040345600000000000000000000000000000000001120403456000000000000000000000000000000000011204034560000000000000000000000000000000000112040345600000000000000000000000000000000001120403456000000000000000000000000000000000011204034560000000000000000000000000000000000))))
 (.node 4 (.node 2 (.node 1 (.leaf 11204034560000000000000000000000000000000000112040345600000000000000000000000000000000001120403456000000000000000000000000000000000011204034560000000000000000000000000000000000112040345600000000000000000000000000000000001120403456000000000000000000000000000000000011204034560000000000000000000000000000000000112040345600000000000000000000000000000000001120403456000000000000000000000000000000000011204034560000000000000000000000000000000000112040345600000000000000000000000000000000001120403456000000000000000000000000000000000011204034560000000000000000000000000000000000112040345600000000000000000000000000000000001120403456000000000000000000000000000000000011204034560000000000000000000000000000000000)
 (.leaf 11204034560000000000000000000000000000000000112040345600000000000000000000000000000000001120403456000000000000000000001019349145347511204034560000000000000000000010217562243476105466633100000000000000000000000000000000001100480512000000000000000000000000000000000011189616640000000000000000000000000000000000110834483200000000000000000000000000000000001099431936000000000000000000000000000000000010863247360000000000000000000000000000000000100898177000000000000000000000000000000000001071736527000000000000000000000000000000000010629012090000000000000000000000000000000000100898177000000000000000000000000000000000001120403456000000000010699535290000000000000011204034560000000000108378907000000000000000))
 (.node 1 (.leaf 11204034560000000000000000000010654457820000112040345600000000001057288408000000000000001120403456000000000000000000000000000000000011204034561055461839000000000000000000000000112040345600000000000000000000000000000000001120403456000000000000000000000000000000000011204034560000000000000000000000000000003477112040345600000000000000000000102948916100001120403456000000000000000000001038285562347811204034560000000000000000000000000000000000112040345600000000000000000000000000000034791120403456000000000000000000000000000000348011193548800000000000105659215400000000000000112040345600000000000000000000000000000000001120403456000000000000000000000000000000348111204034560000000000000000000000000000000000)
 (.leaf 11204034560000000000000000000000000000000000112040345600000000000000000000000000000000001120403456000000000000000000000000000000000011204034560000000000000000000000000000000000112040345600000000000000000000000000000000001120403456000000000000000000000000000000000011204034560000000000000000000000000000000000112040345600000000000000000000000000000000001120403456105075603110957106451032901400000011204034560000000000108472314110480675710000112040345600000000000000000000000000000000001120403456000000000010664286360000000000000011036262400000000000000000000009739146310000112040345600000000000000000000000000000000001120403456000000000000000000000000000000000011204034560000000000000000000000000000000000)))
 (.node 2 (.node 1 (.leaf 11204034561066199048105965231800000000000000109366476800000000000000000000000000000000001120403456000000000000000000000000000000000011204034560000000000000000000000000000000000112040345600000000000000000000000000000000001120403456000000000000000000000000000000000011204034560000000000000000000000000000000000112040345600000000000000000000000000000000001120403456000000000000000000000000000000000011204034560000000000000000000000000000000000112040345600000000000000000000000000000000001120403456000000000010684704230000000000000011204034560000000000101188087300000000000000112040345600000000001074075691000000000000001120403456000000000000000000000000000000000011204034560000000000106914570600000000000000)
 (.leaf 11204034560000000000000000000000000000000000112040345600000000000000000000000000000000001120403456000000000000000000000000000000000011204034560000000000000000000000000000000000112040345600000000000000000000000000000000001120403456000000000000000000000000000000000011204034560000000000000000000000000000000000112040345600000000000000000000000000000000001120403456000000000000000000000000000000000011204034560000000000000000000000000000000000112040345600000000000000000000000000000000001120403456000000000000000000000000000000000011204034560000000000000000000000000000000000112040345600000000000000000000000000000000001120403456000000000000000000000000000000000011204034560000000000000000000000000000000000))
 (.node 1 (.leaf 11204034560000000000000000000000000000000000112040345600000000000000000000000000000000001120403456000000000000000000000000000000000011204034560000000000000000000000000000000000112040345600000000000000000000102767230700001120403456000000000000000000000000000000000011204034560000000000000000000010289444550000112040345600000000000000000000000000000000001118568448000000000000000000000000000000000010561319210000000000000000000000000000000000107044526900000000000000000000000000000000001093664768000000000000000000000000000000000011135877120000000000000000000010441230510000111673344000000000000000000000100820847900001093664768000000000000000000000000000000000010863247360000000000000000000000000000000000)
 (.leaf 10905190400000000000000000000000000000000000106455807700000000000000000000000000000000001111228416000000000000000000000000000000000011204034560000000000000000000000000000000000112040345600000000001057239754107474999300001120403456000000000000000000001065052941000011204034560000000000000000000010587022410000112040345600000000000000000000000000000000001120403456000000000000000000000000000000000011204034560000000000000000000000000000000000112040345610639306590000000000000000000000001120403456000000000000000000000000000000000011204034560000000000000000000000000000000000112040345600000000000000000000000000000000001120403456109417790100000000000000000000000011204034560000000000000000000000000000000000))))))
 (.node 16 (.node 8 (.node 4 (.node 2 (.node 1 (.leaf 11204034561030047511000000000000000000000000112040345600000000000000000000000000000000001120403456000000000000000000000000000000000011204034560000000000000000000000000000000000112040345600000000000000000000000000000000001120403456000000000000000000000000000000000011204034560000000000000000000010494333990000112040345600000000000000000000000000000000001120403456000000000000000000000000000000000011204034560000000000000000000000000000000000112040345610429980450000000000000000000000001120403456000000000000000000000000000000348211163402240000000000000000000010550755930000110205337600000000000000000000106055621034831120403456000000000000000000000000000000000011204034560000000000000000000000000000000000)
 (.leaf 11204034560000000000000000000000000000000000112040345600000000000000000000000000000000001120403456000000000000000000000000000000000011204034560000000000000000000000000000000000112040345600000000000000000000000000000000001120403456000000000000000000000000000000000011204034560000000000000000000000000000000000112040345600000000001089144357105951206200001120403456000000000000000000000000000000000011204034560000000000000000000010364901420000109051904010668125821041355086105268740800001061347857000000000000000000000000000000000011120148480000000000000000000010551151050000112040345600000000000000000000105831090400001120403456000000000000000000000000000000000011204034560000000000000000000000000000000000))
 (.node 1 (.leaf 11204034560000000000000000000000000000000000112040345600000000000000000000000000000000001120403456000000000000000000000000000000000011204034560000000000000000000000000000000000107793612810770041160000000000000000000000001108344832000000000000000000000000000000000011204034560000000000000000000000000000000000112040345600000000000000000000000000000000001120403456000000000000000000000000000000000011204034560000000000000000000000000000000000112040345600000000000000000000000000000000001120403456000000000000000000000000000000000011204034560000000000000000000000000000000000112040345600000000000000000000000000000000001120403456000000000000000000000000000000000011204034560000000000000000000000000000000000)
 (.leaf 11204034561087649993000000000000000000000000112040345600000000000000000000000000000000001120403456000000000000000000000000000000000011204034560000000000000000000000000000000000112040345600000000000000000000000000000000001120403456000000000000000000000000000000000011204034560000000000000000000000000000000000112040345600000000000000000000000000000000001120403456000000000000000000000000000000000011204034560000000000000000000000000000000000112040345600000000000000000000000000000000001120403456000000000000000000000000000000000011204034560000000000000000000000000000000000112040345600000000000000000000000000000000001120403456000000000000000000000000000000000011204034560000000000000000000000000000000000)))
 (.node 2 (.node 1 (.leaf 11204034560000000000000000000000000000000000112040345600000000000000000000000000000000001120403456000000000000000000000000000000000011204034560000000000000000000000000000000000109366476800000000000000000000000000000000001103626240108511310900000000000000000000000011156848641088930965107428834210719397960000104454933400000000000000000000000000000000001115684864000000000000000000000000000000000011204034560000000000108575850500000000000000112040345600000000000000000000000000000000001120403456000000000010658934420000000000000011204034560000000000107386136210664138340000112040345600000000001045187002106365915000001120403456000000000000000000001082380984000011204034560000000000000000000000000000000000)
 (.leaf 11204034560000000000000000000010389234000000112040345600000000000000000000000000000000001120403456000000000000000000000000000000000011204034560000000000000000000000000000000000112040345610885447201045697030000000000000001120403456107445094710863226390000000000000011204034560000000000000000000000000000000000112040345600000000000000000000000000000000001120403456000000000000000000000000000000348411204034560000000000000000000000000000003485112040345600000000000000000000000000000000001119617024000000000000000000000000000000348611193548800000000000000000000010398869313487111856844800000000000000000000000000000000001118175232000000000000000000001072526620000011181752320000000000000000000010514182253488))
 (.node 1 (.leaf 11204034560000000000000000000000000000000000112040345600000000000000000000000000000000001120403456000000000000000000000000000000348911204034560000000000000000000000000000003490112040345600000000000000000000000000000000001120403456000000000000000000000000000000000011204034560000000000000000000000000000000000112040345600000000000000000000000000000000001120403456000000000000000000000000000000000011204034560000000000000000000000000000000000112040345600000000000000000000000000000000001120403456000000000000000000000000000000000011204034560000000000000000000000000000000000112040345600000000000000000000000000000000001120403456000000000000000000000000000000000011204034560000000000000000000010274493753491)
 (.leaf 11204034560000000000000000000000000000003492112040345600000000000000000000000000000000001120403456104799779000000000000000000000000011204034560000000000000000000000000000000000108632473600000000000000000000000000000000001120403456000000000000000000000000000000000011204034560000000000000000000000000000000000112040345600000000000000000000000000000000001120403456000000000000000000000000000000000011204034560000000000000000000000000000000000111358771200000000000000000000000000000000001120403456000000000000000000000000000000000011204034560000000000000000000000000000000000112040345600000000000000000000000000000000001120403456000000000000000000000000000000000011204034560000000000000000000000000000000000))))
 (.node 4 (.node 2 (.node 1 (.leaf 11204034560000000000000000000000000000000000112040345600000000000000000000000000000000001120403456000000000000000000000000000000000011204034560000000000107289289700000000000000112040345600000000000000000000000000000000001120403456000000000000000000000000000000000011204034560000000000000000000000000000000000112040345610911939370000000000000000000000001120403456110767696100000000000000000000000011204034561081513551000000000000000000000000112040345600000000000000000000000000000000001120403456000000000000000000000000000000000011204034560000000000000000000000000000000000112040345600000000000000000000000000000000001120403456000000000000000000000000000000000011204034560000000000000000000000000000000000)
 (.leaf 11204034560000000000000000000000000000000000112040345600000000000000000000000000000000001120403456000000000000000000000000000000000011204034560000000000000000000000000000000000112040345600000000000000000000000000000000001120403456000000000000000000000000000000000011204034560000000000000000000000000000000000112040345600000000000000000000000000000000001120403456000000000000000000000000000000000011204034560000000000000000000000000000000000112040345600000000000000000000000000000000001120403456000000000000000000000000000000000011204034560000000000000000000000000000000000112040345600000000000000000000000000000000001120010240000000000000000000001024751932000011204034560000000000000000000000000000000000))
 (.node 1 (.leaf 11112284160000000000000000000000000000000000102097380200000000000000000000000000000000001067662516000000000000000000000000000000000010617883260000000000000000000000000000000000109681049600000000000000000000000000000000001119617024000000000000000000000000000000000011204034560000000000000000000000000000000000112040345600000000001047562656000000000000001120403456000000000010780678290000000000000011204034560000000000109213604910281867910000112040345600000000001087361149000000000000001120403456000000000000000000000000000000000011204034560000000000000000000000000000000000112040345611055656490000000000000000000000001120403456108159471010954363370000000000000011204034560000000000000000000000000000000000)
 (.leaf 11204034560000000000000000000000000000000000112040345600000000000000000000000000000000001120403456000000000000000000000000000000349311204034560000000000000000000000000000000000112040345600000000000000000000000000000034941120403456000000000000000000000000000000349511200102400000000000000000000000000000003496111122841600000000000000000000000000000000001086324736000000000000000000000000000000000010779361280000000000000000000000000000000000107415714400000000000000000000000000000000001090772345000000000000000000000000000000000011204034560000000000000000000000000000000000112040345600000000000000000000000000000000001120403456000000000000000000000000000000000011204034560000000000000000000000000000000000)))
 (.node 2 (.node 1 (.leaf 11204034560000000000000000000000000000000000112040345600000000000000000000000000000000001120403456000000000000000000000000000000000011204034560000000000000000000000000000000000112040345600000000000000000000000000000000001120403456000000000000000000000000000000000011204034560000000000000000000000000000000000112040345600000000000000000000000000000000001120403456000000000000000000000000000000000011204034560000000000000000000000000000000000112040345600000000000000000000000000000034971120403456000000000000000000000000000000349811204034560000000000108547559900000000000000112040345600000000000000000000103305993100001120403456000000000010512670650000000000000010345724740000000000000000000000000000000000)
 (.leaf 11204034560997629098000000000000000000000000112040345600000000000000000000000000000000001111228416000000000000000000000000000000000011204034560000000000000000000000000000000000112040345600000000000000000000000000000000001120403456000000000000000000000000000000000011204034560000000000000000000000000000000000112040345600000000000000000000000000000000001120403456000000000000000000000000000000000011204034560000000000000000000000000000000000112040345600000000000000000000000000000000001120403456000000000000000000000000000000000011204034561067975646108830402800000000000000112040345600000000000000000000000000000000001120403456000000000000000000000000000000000011204034560000000000000000000000000000000000))
 (.node 1 (.leaf 11204034560000000000000000000000000000000000112040345600000000000000000000000000000000001120403456000000000000000000000000000000000011204034560000000000000000000000000000000000112040345600000000000000000000000000000000001120403456000000000000000000000000000000000011204034560000000000000000000000000000000000112040345600000000000000000000000000000000001120403456000000000000000000000000000000000011204034560000000000000000000000000000000000112040345600000000000000000000000000000000001120403456000000000000000000000000000000000011204034560000000000000000000000000000000000112040345600000000000000000000000000000000001120403456000000000000000000000000000000000011204034560000000000000000000000000000000000)
 (.leaf 11204034560000000000000000000000000000000000112040345600000000000000000000000000000000001120403456000000000000000000000000000000000011204034560000000000000000000000000000000000112040345600000000000000000000000000000000001120403456000000000000000000000000000000000011204034560000000000000000000000000000000000112040345600000000000000000000000000000000001068211718000000000000000000000000000000000010663658890000000000000000000000000000000000112040345600000000001036214547000000000000001120403456000000000010827667080000000000000011204034561078009021105768099500000000000000112040345600000000000000000000104436859800001120403456000000000000000000001026954780000011204034561094295455000000000000000000000000)))))
 (.node 8 (.node 4 (.node 2 (.node 1 (.leaf 11204034560000000000000000000000000000000000112040345600000000000000000000000000000000001120403456000000000000000000000000000000000011204034560000000000000000000000000000003499112040345600000000000000000000104656346000001120403456000000000000000000001040785396350011204034560000000000000000000010446516223501111935488000000000000000000000107616997135021112801280000000000000000000001031786815350311051991040000000000000000000000000000003504111896166400000000001039516303000000000000001120403456000000000000000000000000000000000011204034560000000000000000000000000000000000112040345600000000000000000000000000000000001120403456000000000000000000000000000000000011204034560000000000000000000000000000000000)
 (.leaf 11204034560000000000000000000000000000000000112040345600000000000000000000000000000000001120403456000000000000000000000000000000000011204034560000000000000000000000000000000000112040345600000000000000000000101575689800001120403456000000000000000000000000000000350511204034561055132368109456329310225504040000112040345600000000001085117615105699556600001120403456108357888910923052891066480057000011189616641059487683108716066110410800670000112040345600000000000000000000000000000000001120403456000000000000000000000000000000000011204034560000000000000000000000000000000000112040345600000000000000000000000000000000001120403456000000000000000000000000000000000011204034560000000000000000000000000000000000))
 (.node 1 (.leaf 11204034560000000000000000000000000000000000112040345600000000000000000000000000000000001120403456000000000000000000000000000000000011204034560000000000000000000000000000000000112040345600000000000000000000000000000000001120403456000000000010549479870000000000000011204034561099789841106051298900000000000000112040345600000000000000000000000000000000001120403456000000000000000000000000000000000011204034560000000000000000000000000000000000112040345610785675971021665346000000000000001120403456106666553000000000000000000000000011204034560000000000000000000000000000000000112040345600000000000000000000000000000000001120403456000000000000000000000000000000000011204034560000000000000000000000000000000000)
 (.leaf 11204034560000000000000000000000000000000000112040345600000000000000000000000000000000001120403456000000000000000000000000000000000011204034560000000000000000000000000000000000112040345600000000000000000000000000000000001120403456000000000000000000000000000000000011204034560000000000000000000000000000000000112040345600000000000000000000000000000000001120403456000000000000000000000000000000000011204034560000000000000000000000000000000000112040345600000000000000000000000000000000001120403456000000000000000000000000000000000011193548800000000000000000000010389378790000105470055600000000000000000000000000000000001120403456000000000000000000000000000000000011204034560000000000106816927200000000000000)))
 (.node 2 (.node 1 (.leaf 11204034561058883183106697976700000000000000112040345600000000001058776547000000000000001120403456109943726510777457071051144488000011204034561078759445107340292400000000000000112040345600000000000000000000000000000000001120403456000000000000000000000000000000000011204034560000000000000000000000000000000000112040345611075992350000000000000000000000001120403456110442202200000000000000000000000011204034560000000000000000000000000000000000112040345600000000000000000000000000000000001120403456000000000000000000000000000000000011204034560000000000000000000010460820910000112040345610634752080000000000000000000000001120403456000000000000000000000000000000000011204034560000000000000000000010445349230000)
 (.leaf 11204034560000000000000000000000000000000000112040345600000000000000000000000000000000001120403456000000000000000000000000000000000011200102400000000000000000000000000000003506110834483200000000000000000000000000000000001072244961000000000000000000000000000000000011204034560000000000000000000000000000000000112040345600000000001076446731000000000000001120403456000000000000000000000000000000000011204034560000000000000000000000000000000000112040345600000000000000000000000000000000001120403456000000000000000000000000000000000011204034560000000000000000000000000000000000112040345600000000000000000000000000000000001120403456000000000000000000000000000000350711204034560000000000000000000000000000000000))
 (.node 1 (.leaf 11204034560000000000000000000000000000003508112040345610633900801018068310103275431100001120403456105406530411111088781052084574350911171266561094311470108001105010693209673510111411200000000000000000000000106708223400001120403456000000000000000000000000000000000011204034560000000000000000000000000000000000112040345600000000000000000000000000000000001120403456000000000000000000000000000000000010994319360000000000000000000000000000000000112040345600000000000000000000000000000000001120403456000000000000000000000000000000000011204034560000000000000000000000000000000000112040345600000000000000000000000000000000001120403456000000000000000000000000000000000011204034560000000000000000000000000000000000)
 (.leaf 11204034560000000000000000000000000000000000112040345600000000000000000000000000000000001120403456000000000000000000000000000000000011204034560000000000000000000000000000000000112040345600000000000000000000000000000000001120403456000000000000000000000000000000000011204034560000000000000000000000000000000000112040345600000000000000000000000000000000001120403456000000000000000000000000000000000011204034560000000000000000000000000000000000112040345600000000000000000000000000000000001120403456000000000000000000000000000000000011204034560000000000107835010600000000000000112040345600000000000000000000000000000000001120403456000000000000000000001004845328000011204034560000000000000000000000000000000000))))
 (.node 4 (.node 2 (.node 1 (.leaf 11204034560000000000000000000000000000000000112040345600000000000000000000000000000000001120403456000000000000000000000000000000000011204034560000000000000000000000000000000000112040345600000000000000000000101793243000001120403456000000000000000000000000000000000011204034560000000000000000000000000000003511112001024000000000000000000000101821295535121116340224000000000000000000001028213652000010593398090000000000000000000000000000000000100898177000000000000000000000000000000000001120403456000000000000000000000000000000000011204034560000000000000000000000000000000000112040345610629900441025410020000000000035131120403456109588966510505859100000000000351411204034561076023215108361374810438306440000)
 (.leaf 11204034561103619974000000000000000000000000112040345610987842911082500579000000000000001120403456095093152900000000000000000000000011204034560000000000000000000000000000000000112040345600000000000000000000000000000000001120403456000000000000000000000000000000000011204034560000000000000000000000000000000000112040345610478083420000000000102998873100001120403456109344055900000000000000000000000011204034560000000000000000000000000000003515112040345600000000000000000000000000000000001120403456000000000000000000000000000000351611204034560000000000000000000000000000000000112040345600000000000000000000000000000000001120403456000000000000000000000000000000000011204034560995893931000000000000000000000000))
 (.node 1 (.leaf 11204034560000000000000000000000000000000000112040345600000000000000000000000000000000001117519872107440590400000000001033248857000011204034560000000000000000000000000000000000112040345600000000000000000000000000000000001120403456000000000000000000000000000000000011204034560000000000000000000000000000000000112040345600000000000000000000000000000000001120403456000000000000000000001027580310000011204034560000000000000000000000000000003517112040345600000000000000000000000000000000001120403456000000000000000000000000000000351811204034560000000000000000000000000000000000112040345600000000000000000000000000000035191120403456000000000000000000000000000000352011204034560000000000000000000000000000000000)
 (.leaf 11185684481097266014105693776410829702220000109051904010316849671052189812103908484235211090519040000000000000000000000000000000000011204034560000000000000000000000000000000000112040345600000000000000000000000000000000001108344832000000000010587312491057108936000011204034560000000000000000000000000000000000112040345600000000000000000000000000000000001120403456000000000000000000000000000000000011204034560000000000000000000000000000000000112040345600000000000000000000000000000000001120403456000000000000000000000000000000000011204034560000000000000000000000000000000000112040345600000000000000000000000000000000001120403456000000000000000000000000000000000011204034560000000000000000000000000000000000)))
 (.node 2 (.node 1 (.leaf 11204034560000000000000000000000000000000000112040345600000000000000000000000000000000001120403456000000000000000000000000000000000011204034560000000000000000000000000000000000112040345600000000000000000000000000000000001120403456000000000000000000000000000000000011204034560000000000000000000000000000000000112040345600000000000000000000000000000000001120403456000000000000000000000000000000000011204034561065742213000000000000000000000000112040345600000000000000000000000000000000001120403456000000000000000000000000000000000011204034560000000000000000000000000000000000112040345600000000000000000000000000000000001120403456000000000000000000000000000000000011204034560000000000000000000000000000000000)
 (.leaf 11204034560000000000000000000000000000000000112040345600000000000000000000000000000000001120403456000000000000000000000000000000000011204034560000000000000000000010190001290000112040345600000000000000000000102506068000001120403456000000000000000000000000000000000011204034560000000000000000000000000000003522112040345600000000000000000000000000000000001120403456000000000000000000001044784919352309774404240000000000000000000000000000000000109051904000000000000000000000000000000000001043333321000000000000000000000000000000000011204034560000000000105319980100000000000000112040345610874357361072282206000000000000001120403456109185424400000000001019436187000011204034561091777009105460237600000000000000))
 (.node 1 (.leaf 11204034560000000000000000000000000000000000112040345600000000000000000000000000000000001120403456000000000000000000000000000000000011204034560000000000109176873310632386710000112040345610897536400000000000000000000000001120403456000000000000000000000000000000352411204034560000000000000000000000000000000000112040345610440207850000000000000000000035251120403456000000000000000000000000000000000011204034560000000000000000000000000000000000112040345600000000000000000000000000000000001120403456000000000000000000000000000000000011204034560000000000000000000000000000000000112040345600000000000000000000000000000000001120403456000000000000000000000000000000000011204034560000000000000000000000000000003526)
 (.leaf 11200102400000000000000000000000000000003527111607808000000000000000000000107130861100001086324736104944251000000000001067697967000011204034560000000000000000000000000000000000112040345600000000001081876677000000000000001120403456000000000000000000000000000000000011204034560000000000000000000000000000000000112040345600000000000000000000000000000000001120403456000000000000000000000000000000000011204034560000000000000000000000000000000000112040345600000000000000000000000000000035281120403456000000000000000000000000000000352911204034560000000000000000000000000000003530112040345600000000000000000000103368579235311120403456000000000000000000000000000000353211148984321093852143109235719410766789680000)))))))))
 (.node 128 (.node 64 (.node 32 (.node 16 (.node 8 (.node 4 (.node 2 (.node 1 (.leaf 11204034560000000000000000000000000000000000110362624000000000001050944943106485150400001026603135000000000000000000000000000000000010711230680000000000000000000000000000000000112040345600000000000000000000000000000000001120403456000000000000000000000000000000000011204034560000000000000000000000000000000000112040345600000000001063742603000000000000001120403456000000000000000000000000000000000011204034560000000000000000000000000000000000112040345600000000000000000000000000000000001120403456000000000000000000000000000000000011204034560000000000108571761000000000000000112040345600000000000000000000000000000000001120403456000000000000000000000000000000000011204034560000000000000000000000000000000000)
 (.leaf 11204034560000000000000000000000000000000000112040345600000000000000000000000000000000001120403456000000000000000000000000000000000011204034560000000000000000000000000000000000112040345600000000000000000000000000000000001120403456000000000000000000000000000000000011204034560000000000000000000000000000000000112040345600000000000000000000000000000000001120403456000000000000000000000000000000000011204034560000000000000000000000000000000000112040345600000000000000000000000000000000001120403456109402726100000000000000000000000011204034560000000000000000000000000000000000112040345600000000000000000000000000000000001120403456000000000000000000000000000000000011204034560000000000000000000000000000000000))
 (.node 1 (.leaf 11204034560000000000000000000000000000000000112040345600000000000000000000000000000000001120403456000000000000000000000000000000000011204034560000000000000000000000000000000000112040345600000000000000000000000000000000001120403456000000000000000000001047789961000011204034560000000000000000000000000000000000112040345600000000000000000000000000000000001108344832000000000000000000001041456210000011204034560000000000105668275100000000000000112040345610938130811085508734000000000000001120403456000000000010826748531030621695000011204034561103539923102522211500000000000000112040345610343820731067185288000000000000001120403456102631250000000000001024037772000011204034560000000000000000000000000000000000)
 (.leaf 11204034560000000000000000000000000000000000112040345600000000000000000000000000000000001120403456000000000010559479091057349513000011204034560000000000110358712810407634330000112040345600000000000000000000106583772500001120403456108833456500000000000000000000000011204034560000000000000000000000000000000000112040345600000000000000000000000000000035331120403456000000000000000000000000000000353411204034560000000000000000000000000000000000112040345600000000000000000000000000000035351118961664000000000000000000001072298082000010863247360000000000000000000000000000000000112040345600000000000000000000000000000000001120403456000000000000000000000000000000000011204034560000000000000000000000000000000000)))
 (.node 2 (.node 1 (.leaf 11204034560000000000000000000000000000000000112040345600000000000000000000000000000000001120403456000000000000000000000000000000000011204034560000000000000000000000000000000000112040345600000000000000000000000000000035361120403456000000000000000000000000000000353711204034560000000000000000000000000000003538112040345600000000000000000000000000000035391120403456000000000000000000000000000000354011204034561054634488104686472400000000000000109366476800000000000000000000000000000000001077936128000000000000000000000000000000000010863247360000000000000000000000000000000000109943193600000000000000000000000000000000001105199104000000000000000000000000000000000011204034560000000000000000000000000000000000)
 (.leaf 11204034560000000000000000000000000000000000112040345600000000001075339434000000000000001120403456000000000000000000000000000000000011204034560000000000101624294900000000000000112040345600000000001074487571000000000000001120403456000000000000000000000000000000000011204034560000000000000000000000000000000000112040345600000000001071466834000000000000001120403456000000000000000000000000000000000011204034560000000000000000000000000000000000112040345600000000000000000000000000000000001120403456000000000000000000000000000000000011204034560000000000000000000000000000000000112040345600000000000000000000000000000000001120403456000000000000000000000000000000000011204034560000000000000000000000000000000000))
 (.node 1 (.leaf 11204034560000000000000000000000000000000000112040345600000000000000000000000000000000001120403456000000000000000000000000000000000011204034560000000000000000000000000000000000112040345600000000000000000000000000000000001120403456000000000000000000000000000000000011204034560000000000000000000010428455540000112040345600000000000000000000000000000000001120403456000000000000000000000000000000000011204034560000000000000000000000000000000000112040345600000000000000000000000000000000001120403456000000000000000000000000000000000011204034560000000000000000000000000000000000112040345600000000000000000000000000000000001120403456000000000000000000000000000000000011204034560000000000000000000000000000000000)
 (.leaf 11204034560000000000000000000000000000000000109681049600000000000000000000104398664100001120403456110258105610344428731057216879000011204034561080032835108655164800000000000000112040345610890879961074756007105466556900001120403456000000000000000000001019984260000011204034560000000000000000000000000000000000112040345600000000000000000000000000000000001120403456000000000000000000000000000000000011204034560000000000000000000000000000000000112040345600000000000000000000000000000000001120403456000000000000000000000000000000000011204034560000000000000000000000000000000000112040345610908926890000000000105029160300001120403456000000000000000000001069570912000011204034561105310220000000000000000000000000))))
 (.node 4 (.node 2 (.node 1 (.leaf 11204034560000000000000000000000000000000000112040345600000000000000000000000000000000001120403456000000000000000000000000000000000011204034560000000000000000000000000000000000112040345600000000000000000000000000000000001120403456000000000000000000000000000000354111204034560000000000000000000000000000000000111673344000000000000000000000104853553600001086293216000000000000000000000000000000000011204034560000000000000000000000000000000000112040345600000000000000000000000000000000001120403456107671443600000000001038041344000011204034561061119301000000000000000000000000112040345600000000000000000000000000000000001120403456000000000000000000000000000000000011204034560000000000000000000000000000000000)
 (.leaf 11204034560000000000000000000000000000000000112040345600000000000000000000104155604800001120403456000000000000000000000000000000000011204034560000000000000000000010294861273542112040345600000000000000000000104185605435431120403456000000000000000000000000000000000011204034560000000000000000000010331427490000112040345600000000000000000000000000000000001120403456000000000000000000000000000000354411204034560000000000000000000000000000003545112040345600000000001032362498106000202835461120403456000000000000000000000000000000354711204034560000000000000000000000000000003548110519910400000000000000000000000000000000001107558400000000000000000000000000000000000011204034560000000000000000000000000000000000))
 (.node 1 (.leaf 11204034560000000000000000000000000000000000112040345600000000000000000000000000000000001120403456000000000010710692130000000000000011204034560000000000000000000000000000000000112040345600000000000000000000000000000000001120403456000000000000000000000000000000000011204034560000000000000000000000000000000000112040345600000000000000000000000000000000001120403456000000000000000000000000000000000011204034560000000000000000000000000000000000112040345600000000000000000000000000000000001120403456000000000000000000000000000000000011204034560000000000000000000000000000000000112040345600000000000000000000000000000000001120403456000000000000000000000000000000000011204034560000000000000000000000000000000000)
 (.leaf 11204034560000000000000000000000000000000000112040345600000000000000000000000000000000001120403456000000000000000000000000000000000011204034560000000000000000000000000000000000112040345600000000001080874657000000000000001120403456000000000000000000001034933551000011204034560000000000000000000000000000000000112040345610607388111100015888102120113500001120403456000000000000000000000000000000000011204034560000000000000000000000000000000000112040345600000000000000000000000000000000001120403456000000000000000000000000000000000011204034560000000000000000000000000000000000112040345600000000000000000000000000000000001120403456000000000000000000000000000000000011204034560000000000000000000000000000000000)))
 (.node 2 (.node 1 (.leaf 11204034560000000000000000000000000000000000112040345600000000000000000000000000000000001120403456000000000000000000000000000000000011204034560000000000000000000000000000003549112040345600000000000000000000000000000035501096810496000000000000000000001070692054000011204034560000000000000000000000000000000000112040345610549564421077468044107145000700001120403456108224206810660654091040498921000011204034561083928444107529833010589105990000112040345600000000001083049404101843185100001120403456000000000010755755740000000000000011204034560000000000000000000000000000000000112040345600000000000000000000000000000000001120403456000000000000000000000000000000000011204034560000000000000000000000000000000000)
 (.leaf 11204034561087312050000000000000000000000000112040345600000000000000000000000000000000001120403456000000000000000000000000000000000011204034560000000000000000000010516494340000112040345600000000000000000000000000000000001120403456000000000000000000000000000000000011204034560000000000000000000000000000000000112040345600000000000000000000000000000000001120403456000000000000000000000000000000000011204034560000000000000000000000000000000000112040345610694735070000000000000000000000001120403456000000000000000000000000000000000011204034560000000000000000000000000000000000112040345600000000000000000000000000000000001120403456000000000000000000000000000000355111204034560000000000000000000010217142340000))
 (.node 1 (.leaf 11204034560000000000000000000000000000000000112040345600000000000000000000000000000035521120403456000000000000000000000000000000355311181752321100212480109090040710780695300000107793612800000000000000000000000000000000001120403456000000000000000000000000000000000011204034560000000000000000000000000000000000112040345600000000000000000000000000000000001120403456000000000000000000000000000000000011204034560000000000000000000000000000000000112040345600000000000000000000000000000000001120403456000000000000000000000000000000000011204034560000000000000000000000000000000000112040345600000000000000000000000000000000001120403456000000000000000000000000000000000011204034560000000000000000000000000000000000)
 (.leaf 11204034560000000000000000000000000000000000112040345600000000000000000000000000000000001120403456000000000000000000000000000000000011204034560000000000000000000000000000000000112040345600000000000000000000000000000000001120403456000000000000000000000000000000000011204034560000000000000000000000000000000000112040345600000000000000000000000000000000001120403456000000000000000000000000000000000011204034560000000000000000000010254553060000112040345600000000000000000000000000000000001120403456000000000000000000000000000000000011204034560000000000000000000000000000000000112040345600000000000000000000000000000000001120403456000000000000000000000000000000000011204034560000000000000000000000000000000000)))))
 (.node 8 (.node 4 (.node 2 (.node 1 (.leaf 11204034560000000000000000000000000000000000112040345600000000000000000000103284424800001120403456000000000000000000000000000000000011204034560000000000000000000000000000000000112040345600000000000000000000000000000000001120403456000000000000000000000000000000000011204034560000000000000000000010291630343554109943193600000000000000000000105250498735551087351858000000000000000000000000000000000011204034560000000000000000000000000000000000112040345600000000001056135814106509611500001120403456107245854310744426921054837735000011204034560000000000104560978800000000000000112040345600000000000000000000000000000000001120403456000000000000000000000000000000000011204034560000000000000000000000000000000000)
 (.leaf 11204034560000000000106942336900000000003556112040345600000000000000000000000000000000001120403456000000000000000000000000000000000011204034560000000000000000000000000000000000112040345600000000000000000000000000000000001120403456105980868200000000000000000000000011204034561048597844000000000000000000000000112040345600000000000000000000000000000035571120403456000000000000000000000000000000000011204034560000000000000000000000000000000000112040345600000000000000000000000000000000001120403456000000000000000000000000000000000011204034560000000000000000000000000000000000112040345600000000000000000000000000000000001120403456000000000000000000000000000000000011204034560000000000000000000000000000000000))
 (.node 1 (.leaf 11204034560000000000000000000000000000000000112040345600000000000000000000000000000000001120403456000000000000000000000000000000355811204034560000000000000000000000000000003559112040345600000000000000000000000000000035601115684864105820905811006115841078735032000010936647680000000000000000000000000000000000111961702400000000000000000000000000000000001120403456000000000000000000000000000000000011204034560000000000000000000000000000000000112040345600000000001065755869000000000000001120403456000000000000000000000000000000000011204034560000000000000000000000000000000000112040345600000000000000000000000000000000001120403456000000000000000000000000000000000011204034560000000000000000000000000000000000)
 (.leaf 11204034560000000000000000000000000000000000112040345600000000000000000000000000000000001120403456000000000000000000000000000000000011204034560000000000000000000000000000000000112040345600000000000000000000000000000000001120403456000000000000000000000000000000000011204034560000000000000000000000000000000000112040345600000000000000000000000000000000001120403456000000000000000000000000000000000011204034560000000000000000000000000000000000112040345600000000000000000000103212580000001120403456000000000000000000000000000000000011204034560000000000000000000010391659520000112040345600000000000000000000000000000000001120403456000000000000000000000000000000000011204034560000000000000000000000000000000000)))
 (.node 2 (.node 1 (.leaf 11204034560000000000000000000000000000000000112040345600000000000000000000000000000000001120403456000000000000000000000000000000000011204034560000000000000000000000000000000000112040345600000000000000000000000000000035611120403456000000000000000000001051697198356210634384160000000000000000000000000000000000106947412000000000000000000000000000000000001120403456000000000000000000000000000000000011204034561086269556000000000000000000000000112040345600000000000000000000000000000035631120403456000000000000000000000000000000000011204034560000000000000000000000000000000000112040345610928077841101159413105976732700001120403456109030207310940340761053383069000011204034561109715026104715329210630977640000)
 (.leaf 11204034561116307135105031412010627390893564112040345610776549251083755935000000000035651120403456000000000000000000000000000000000011204034560000000000000000000000000000000000112040345600000000000000000000104609023600001120403456000000000000000000000000000000000011204034560000000000000000000000000000000000112040345600000000000000000000000000000000001117913088000000000000000000001047552632000010731414510000000000000000000000000000000000112040345600000000000000000000000000000000001120403456000000000000000000000000000000000011204034560000000000105700319600000000000000112040345600000000000000000000000000000000001120403456000000000000000000000000000000000011204034560000000000000000000000000000000000))
 (.node 1 (.leaf 11204034560000000000000000000000000000000000112040345600000000000000000000000000000000001120403456000000000000000000000000000000000011204034560000000000000000000000000000000000112040345600000000000000000000000000000000001120403456000000000000000000000000000000000011204034560000000000000000000000000000000000112040345600000000000000000000000000000000001120403456000000000000000000000000000000356611204034560000000000000000000000000000003567112040345600000000000000000000000000000000001120403456000000000000000000000000000000000011204034560000000000000000000000000000000000112040345600000000000000000000000000000000001120403456000000000000000000000000000000000011204034560000000000107826957500000000000000)
 (.leaf 11204034560000000000106461334100000000000000112040345600000000000000000000000000000000001120403456000000000000000000000000000000000011204034560000000000000000000000000000000000112040345600000000001067214648000000000000001120403456000000000010954462990000000000000011204034560000000000099349304400000000000000112040345600000000000000000000000000000000001120403456000000000000000000000000000000000011204034560000000000000000000000000000000000112040345600000000000000000000000000000000001120403456000000000000000000000000000000000011204034560000000000000000000000000000000000112040345600000000000000000000000000000000001120403456000000000000000000000000000000000011204034560000000000000000000000000000000000))))
 (.node 4 (.node 2 (.node 1 (.leaf 11204034560000000000000000000000000000000000112040345600000000000000000000000000000000001120403456000000000000000000000000000000000011204034560000000000000000000000000000000000112040345600000000000000000000000000000000001120403456000000000000000000000000000000000011204034560000000000000000000000000000000000112040345600000000000000000000102551720700001038323645000000000000000000000000000000000011204034560000000000000000000000000000000000112040345600000000000000000000000000000000001120403456000000000000000000000960759489000011204034560000000000000000000010312432020000112040345600000000001066411019103714141200001120403456000000000000000000000000000000000011204034560000000000000000000010379764220000)
 (.leaf 11204034560000000000000000000010266975340000112040345600000000000000000000000000000000001120403456110578465600000000000000000000000011204034560000000000000000000000000000000000112040345600000000000000000000000000000000001120403456000000000000000000000000000000000011204034560000000000000000000000000000003568112040345600000000000000000000000000000000001120403456000000000000000000000000000000000011204034560000000000000000000000000000000000112040345600000000000000000000000000000000001090519040000000000000000000000000000000000011167334400000000000000000000000000000000000112040345600000000000000000000000000000000001120403456000000000000000000001028050608356911204034560000000000000000000000000000000000))
 (.node 1 (.leaf 11204034560000000000000000000000000000000000112040345600000000000000000000000000000000001120403456000000000000000000000000000000000011204034560000000000000000000000000000000000112040345600000000000000000000000000000000001120403456000000000000000000000000000000357011204034560000000000000000000010351008373571112040345600000000000000000000000000000035721120403456000000000000000000000000000000000011204034560000000000000000000000000000000000112040345600000000000000000000000000000000001120403456000000000000000000000000000000000011204034560000000000000000000000000000000000112040345600000000000000000000000000000000001120403456000000000000000000000000000000000011204034560000000000000000000000000000000000)
 (.leaf 11204034560000000000000000000000000000000000112040345600000000000000000000000000000000001120403456000000000000000000000000000000000011204034560000000000000000000000000000000000112040345600000000001091194428000000000000001120403456000000000000000000000000000000000011204034560000000000000000000000000000000000112040345600000000000000000000000000000000001120403456000000000000000000000000000000000011204034560000000000000000000000000000000000112040345600000000000000000000000000000000001120403456000000000000000000000000000000000011204034560000000000000000000000000000000000112040345600000000000000000000000000000000001120403456000000000000000000001035083189000011204034560000000000000000000000000000000000)))
 (.node 2 (.node 1 (.leaf 11204034560000000000000000000010198209253573112040345600000000000000000000102315447200001120403456000000000000000000000000000000357411200102400000000000000000000010287411603575112040345600000000000000000000103591221300001120403456000000000000000000000000000000000011204034560000000000000000000000000000000000112040345600000000000000000000000000000000001120403456000000000010617897350000000000000011204034560000000000000000000000000000000000112040345611076422301058840301108277977400001120403456109597747510318658931033800775357611204034560000000000000000000000000000000000112040345600000000000000000000000000000000001120403456000000000000000000000000000000000011204034560000000000000000000000000000000000)
 (.leaf 11204034560000000000000000000000000000000000112040345600000000000000000000000000000000001120403456000000000000000000000000000000000011204034560000000000000000000000000000000000111673344000000000000000000000105806036000001093664768000000000000000000001074194419357711175198720000000000000000000000000000000000112040345600000000000000000000000000000000001120403456000000000000000000000000000000000011204034560000000000000000000000000000000000112040345600000000000000000000000000000000001120403456000000000000000000000000000000357811204034560000000000000000000000000000003579112040345600000000001093342226000000000035801120403456000000000010618014790000000000358111204034560000000000000000000010541894773582))
 (.node 1 (.leaf 11204034560000000000000000000000000000000000112040345600000000000000000000000000000000001120403456000000000000000000000000000000000011204034560000000000000000000000000000000000112040345600000000000000000000000000000000001120403456000000000000000000000000000000000011204034560000000000000000000000000000000000112040345600000000000000000000000000000000001120403456000000000000000000000000000000000011204034560000000000000000000000000000000000112040345600000000000000000000000000000000001120403456000000000000000000000000000000000011204034560000000000000000000000000000000000112040345600000000000000000000000000000000001120403456000000000000000000000000000000000011204034560000000000000000000000000000000000)
 (.leaf 11204034561118133282000000000000000000000000112040345600000000001084754808000000000000001120403456000000000000000000000000000000000011204034560000000000000000000000000000000000112040345600000000000000000000000000000000001120403456000000000000000000000000000000000011204034560000000000000000000000000000000000112040345600000000000000000000000000000000001120403456000000000000000000001035872183000011204034560000000000000000000010351575990000112040345600000000000000000000000000000000001120403456000000000000000000001027090194358310665283760000000000000000000010234265000000112040345600000000000000000000000000000000001120403456000000000000000000000000000000000011204034560000000000000000000000000000000000))))))
 (.node 16 (.node 8 (.node 4 (.node 2 (.node 1 (.leaf 11204034561054123890000000000010267022930000112040345600000000000000000000000000000000001120403456000000000010750542221044949201000011204034561078799735000000000000000000000000112040345600000000000000000000000000000000001120403456000000000000000000000000000000000011204034560000000000000000000000000000000000112040345600000000000000000000000000000000001120403456000000000000000000000000000000000011204034560000000000000000000000000000000000112040345600000000000000000000000000000000001120403456000000000000000000001057119933000011204034560000000000000000000000000000000000112040345600000000000000000000000000000000001120403456000000000000000000000000000000000011204034560000000000000000000000000000000000)
 (.leaf 11204034560000000000104765660900000000000000112040345600000000001083589001000000000000001120403456000000000000000000000000000000000011204034560000000000000000000010269753700000112040345600000000000000000000000000000035841120403456000000000000000000000000000000358511204034560000000000000000000000000000003586112040345600000000001089912124000000000000001120403456000000000000000000000000000000358711204034560000000000000000000000000000003588112040345600000000000000000000000000000035891090519040000000000000000000000000000000000011204034560000000000000000000000000000000000112040345610553444990000000000000000000000001120403456000000000010605767430000000000000011204034560000000000000000000000000000000000))
 (.node 1 (.leaf 11204034560000000000000000000000000000000000112040345600000000000000000000000000000000001120403456000000000000000000000000000000000011204034561085967581108143837200000000000000112040345600000000000000000000000000000000001120403456000000000000000000000000000000000011204034560000000000000000000000000000000000112040345600000000000000000000000000000000001120403456000000000000000000000000000000000011204034560000000000000000000000000000000000112040345610647040051050183257000000000000001120403456000000000010799166780000000000000011204034560000000000000000000000000000000000112040345600000000000000000000000000000000001120403456000000000000000000000000000000000011204034560000000000000000000000000000000000)
 (.leaf 11204034560000000000000000000010495680550000112040345600000000000000000000000000000000001120403456000000000000000000000000000000000011204034560000000000000000000000000000000000112040345600000000000000000000103547051800001116078080000000000000000000001077908267000010089817700000000000000000000000000000000000106793497800000000000000000000000000000000001120403456000000000000000000000000000000000011204034560000000000000000000000000000000000112040345600000000000000000000000000000000001120403456000000000000000000000000000000000011204034561084213225106504283800000000000000112040345610906784421028013844103436521000001120403456000000000000000000000000000000000011204034560000000000105790413200000000000000)))
 (.node 2 (.node 1 (.leaf 11204034560000000000000000000000000000000000112040345600000000000000000000000000000000001120403456000000000000000000001049444516000011204034560000000000000000000010416085310000112040345610172962900000000000103664622700001120403456106751869300000000000000000000000011189616640000000000000000000010900858803590112040345610659848280000000000000000000000001120403456103400733700000000000000000000000011204034560000000000108146437700000000000000112040345610817819231077571643000000000000001120403456000000000000000000000000000000000011204034560000000000000000000000000000000000112040345600000000000000000000000000000035911120403456000000000000000000000000000000000011204034560000000000106557467500000000000000)
 (.leaf 11204034560000000000000000000000000000000000112040345600000000000000000000000000000035921120403456000000000010837970390000000000000011204034560000000000000000000000000000000000112040345600000000001082676111000000000000001120403456108900184910438314030000000000000011204034560000000000107301117600000000000000112040345600000000000000000000000000000000001120403456107779635300000000000000000000000011204034561080009289107218825400000000000000112040345610720362441016242949000000000000001120403456000000000000000000000000000000000011204034560000000000000000000000000000000000112040345600000000000000000000000000000000001120403456000000000000000000000000000000000011204034560000000000000000000000000000000000))
 (.node 1 (.leaf 11204034560000000000000000000000000000000000112040345600000000000000000000000000000000001120403456000000000000000000000000000000000011204034560000000000000000000000000000000000112040345600000000000000000000000000000000001120403456106502294000000000000000000000000011204034561071930732103237592000000000000000112040345600000000000000000000000000000000001120403456000000000000000000000000000000000011204034560000000000000000000000000000000000112040345600000000000000000000000000000000001120403456103484391600000000000000000000000011204034561076794384000000000000000000000000112040345600000000000000000000000000000000001120403456000000000010709517730000000000000011204034560000000000000000000000000000000000)
 (.leaf 11204034560000000000000000000000000000000000112040345600000000000000000000104675010700001120403456000000000000000000000000000000000011204034560000000000000000000000000000000000112040345600000000000000000000000000000000001120403456000000000000000000000000000000000011204034560000000000000000000010275998530000112040345600000000000000000000102869267700001096810496000000000000000000000000000000000011196170240000000000000000000000000000003593112040345600000000000000000000104204385100001120403456000000000000000000000000000000000011204034560000000000000000000000000000000000112040345600000000000000000000000000000000001120403456108473372300000000000000000000000011204034561092259231106031166310767424743594))))
 (.node 4 (.node 2 (.node 1 (.leaf 11204034560000000000000000000000000000000000112040345600000000000000000000000000000000001120403456105427199900000000000000000000000011204034560000000000000000000000000000000000112040345600000000000000000000000000000000001120403456000000000000000000000000000000000011204034560000000000000000000010433311880000112040345600000000000000000000105430586900001120403456000000000000000000001060951835000011204034560000000000000000000010357922050000112040345611038508961052857546107049621800001112801280107424739310665284601081402983000011204034560000000000000000000000000000000000112040345600000000000000000000000000000000001120403456000000000000000000000000000000000011204034561081556483000000000000000000000000)
 (.leaf 11204034561069939176107022951400000000000000112040345600000000000000000000000000000000001120403456000000000000000000000000000000000011204034560000000000105512247010339910460000112040345600000000000000000000103016307200001120403456000000000000000000000000000000000011204034560000000000000000000000000000000000112001024000000000000000000000000000000000001120403456000000000000000000000000000000000011204034560000000000106440865900000000000000112040345610817275691061841745000000000000001120403456000000000000000000000000000000000011204034560000000000000000000000000000000000112040345600000000000000000000000000000000001120403456000000000000000000000000000000000011204034560000000000000000000000000000000000))
 (.node 1 (.leaf 11204034560000000000000000000000000000000000112040345600000000001077257909000000000000001120403456000000000000000000000000000000000011204034560000000000000000000000000000000000112040345600000000000000000000000000000000001120403456000000000000000000000000000000000011204034560000000000000000000000000000000000112040345600000000000000000000000000000000001120403456000000000000000000000000000000000011204034560000000000000000000000000000000000112040345600000000000000000000000000000000001120403456000000000000000000000000000000000011204034560000000000000000000000000000000000112040345610871971740000000000000000000000001120403456000000000000000000000000000000000011204034560000000000000000000000000000000000)
 (.leaf 11204034560000000000000000000000000000000000112040345600000000000000000000000000000000001120403456000000000000000000001040052846000011204034560000000000000000000000000000000000112040345610389274901048894767000000000000001120403456105148966600000000000000000000000011204034560000000000000000000000000000000000112040345600000000000000000000000000000035951120403456000000000000000000001034096286000011204034560000000000000000000010483107163596112040345600000000000000000000000000000000001120403456000000000000000000000000000000000011036262400000000000000000000000000000000000112040345600000000000000000000000000000035971120403456000000000000000000000000000000000011204034560000000000000000000000000000000000)))
 (.node 2 (.node 1 (.leaf 11204034560000000000000000000000000000000000112040345600000000000000000000000000000000001120403456000000000000000000001037798395359811204034560000000000000000000000000000003599112040345600000000000000000000000000000000001120403456000000000000000000000000000000000011204034560000000000000000000000000000000000112040345600000000000000000000000000000000001120403456000000000000000000000000000000000011204034560000000000000000000000000000000000112040345600000000000000000000000000000000001120403456000000000000000000001044811324000011204034560000000000000000000000000000000000112040345600000000000000000000102936858700001120403456000000000000000000001053706584360010863247360000000000000000000010545116620000)
 (.leaf 10848384210000000000000000000000000000000000112040345600000000000000000000000000000000001120403456000000000000000000000000000000000011204034561082403666106517705500000000000000112040345600000000001083414518000000000000001120403456000000000010841317440000000000000011204034560000000000000000000000000000000000112040345600000000000000000000102819478300001120403456000000000000000000001015203712000011204034560000000000000000000000000000000000112040345600000000000000000000000000000000001120403456000000000000000000000000000000000010779361280000000000000000000000000000000000112040345600000000000000000000000000000000001120403456000000000000000000000000000000000011204034560000000000107915163700000000000000))
 (.node 1 (.leaf 11204034560000000000107497453000000000000000112040345600000000000000000000000000000000001120403456000000000000000000000000000000000011204034560000000000000000000000000000000000112040345600000000000000000000000000000000001120403456000000000000000000000000000000000011204034560000000000000000000000000000000000112040345600000000000000000000000000000000001120403456000000000000000000000000000000000011204034560000000000000000000000000000000000112040345600000000000000000000000000000000001120403456000000000000000000000000000000000011204034560000000000000000000000000000000000112040345600000000000000000000000000000000001120403456104946915200000000000000000000000011204034560000000000000000000000000000000000)
 (.leaf 11204034560000000000000000000000000000000000112040345600000000000000000000000000000000001120403456000000000000000000000000000000000011204034560000000000000000000000000000000000112040345611139360670000000000000000000000001120403456108886329000000000000000000000000011204034560000000000000000000010186530070000112040345600000000000000000000000000000000001120403456000000000000000000000000000000000011204034560000000000000000000010149626310000112040345600000000000000000000000000000000001083692391000000000000000000001057446526000011067719680000000000000000000000000000000000112040345600000000000000000000000000000000001120403456000000000000000000001053211485000011204034560000000000000000000000000000000000)))))
 (.node 8 (.node 4 (.node 2 (.node 1 (.leaf 11204034560000000000108323017900000000000000112040345600000000001028013844000000000000001120403456000000000000000000000000000000000011204034560000000000000000000000000000000000112040345600000000000000000000000000000036011120403456000000000000000000000000000000000011204034560000000000000000000000000000000000112040345600000000000000000000000000000000001120403456000000000000000000000000000000000011204034560000000000000000000000000000000000112040345600000000000000000000103640903400001120403456000000000000000000000000000000000011204034560000000000000000000000000000000000112040345600000000000000000000000000000000001120403456000000000000000000000000000000000011204034560000000000106563004010262932720000)
 (.leaf 11036262401029825247100660611610730217930000112040345600000000000000000000000000000000001120403456000000000000000000001024709802000011204034560000000000000000000000000000000000112040345600000000000000000000000000000036021120403456000000000000000000000000000000360311204034560000000000000000000000000000000000112040345600000000000000000000000000000000001120403456000000000000000000000000000000000011204034560000000000000000000010337720443604112040345600000000000000000000103525987900001120403456000000000000000000000000000000360511204034560000000000000000000000000000000000112040345600000000000000000000000000000000001118961664000000000000000000000000000000000011204034560000000000105202875100000000000000))
 (.node 1 (.leaf 11204034560000000000000000000000000000000000112040345600000000000000000000000000000000001120403456000000000000000000000000000000000011204034560000000000110210805900000000000000112040345600000000000000000000000000000000001120403456000000000000000000000000000000000011204034560000000000000000000000000000000000112040345600000000000000000000000000000000001120403456000000000000000000000000000000000011204034561111337377102578583000000000000000112040345610835038591077083845000000000000001120403456110061076810161892620000000000000011204034560000000000000000000000000000000000112040345600000000000000000000000000000000001120403456000000000000000000000000000000000011204034560000000000000000000010422561450000)
 (.leaf 11204034560000000000000000000000000000000000112040345610725972070000000000102343047100001120403456108054009500000000000000000000000011204034560000000000000000000000000000000000112040345600000000000000000000000000000000001120403456000000000000000000000000000000000011204034560000000000000000000000000000000000112040345600000000000000000000000000000000001120403456000000000000000000000000000000000011204034560000000000000000000010301856193606112040345600000000000000000000000000000000001120403456000000000000000000000000000000000010750535930000000000000000000000000000000000100898177000000000000000000000000000000000001120403456000000000000000000000000000000000011204034560000000000000000000000000000003607)))
 (.node 2 (.node 1 (.leaf 11204034560000000000000000000000000000000000112040345600000000000000000000000000000036081120403456000000000000000000000000000000000011204034560000000000000000000000000000000000112040345600000000000000000000000000000000001120403456000000000000000000000000000000000011204034560000000000000000000000000000000000112040345600000000000000000000000000000000001120403456000000000000000000000000000000000011204034560000000000000000000000000000000000112040345600000000000000000000000000000000001102053376108168648210404289841056359613000011204034560000000000000000000010239137240000112040345600000000000000000000000000000000001120403456000000000000000000001034716263360911204034560000000000000000000010199491090000)
 (.leaf 11204034560000000000000000000010153616550000112040345600000000000000000000101739550936101120403456000000000000000000001035995701000011204034560000000000000000000000000000000000112040345600000000000000000000000000000000001120403456000000000000000000000000000000000011204034560000000000000000000000000000003611112040345600000000000000000000000000000000001120403456000000000000000000000000000000361210071291680000000000000000000000000000000000112040345600000000000000000000000000000000001120403456000000000000000000000000000000000011204034560000000000000000000000000000000000112040345600000000000000000000000000000000001120403456000000000000000000000000000000000011204034560000000000000000000000000000000000))
 (.node 1 (.leaf 11204034560000000000000000000000000000000000112040345600000000000000000000000000000000001120403456000000000000000000000000000000000011051991040000000000000000000000000000000000111201484800000000000000000000000000000000001120010240000000000000000000000000000000000011204034561087499168108338620700000000000000112040345611073551551052360940000000000000001120403456104520471910168871940000000000000011204034560000000000000000000000000000000000112040345600000000000000000000000000000036131120403456000000000000000000000000000000361411204034561083788778000000000000000000000000112040345609517561630000000000000000000000001120403456000000000000000000000000000000000011204034560000000000000000000000000000000000)
 (.leaf 11204034560000000000000000000010389478690000112040345600000000000000000000000000000000001120403456000000000000000000000000000000000011204034560000000000000000000000000000000000112040345600000000000000000000000000000000001120403456000000000000000000000000000000000010089817700000000000000000000000000000000000105818139200000000000000000000000000000000001120403456000000000000000000001001280332000011204034560000000000000000000010304664740000112040345600000000000000000000000000000000001120403456000000000010584225480000000000000011204034560000000000000000000000000000000000112040345600000000000000000000000000000036151120403456000000000010786424490000000000000011204034560000000000000000000000000000000000))))
 (.node 4 (.node 2 (.node 1 (.leaf 11204034561077042859098338645010231635500000112040345610648324180000000000000000000000001120403456000000000000000000000000000000000011204034560000000000000000000000000000000000112040345600000000000000000000000000000000001120403456105898758800000000000000000000000011204034560000000000000000000010328826020000112040345600000000000000000000101116177600001107558400000000000000000000001051543201000011204034560000000000000000000000000000000000112040345600000000000000000000000000000000001120403456000000000000000000000000000000000011204034560000000000000000000000000000000000112040345600000000000000000000000000000036161120403456107700495900000000000000000000000011204034560000000000000000000000000000000000)
 (.leaf 11204034560000000000000000000010279868000000112040345600000000000000000000000000000036171120403456000000000000000000000000000000000010779361280000000000000000000000000000000000104484615600000000000000000000000000000000001112014848000000000000000000001070957910000011204034560000000000000000000010352562553618112040345600000000000000000000000000000000001120403456000000000000000000000000000000000011204034560000000000106186020000000000000000112040345600000000000000000000000000000000001120403456000000000000000000000000000000000011204034560000000000000000000000000000000000112040345600000000000000000000000000000000001120403456000000000000000000000000000000000011204034560000000000000000000000000000000000))
 (.node 1 (.leaf 11204034560000000000000000000000000000000000109051904000000000000000000000000000000000001108344832000000000000000000001037607236000011204034560000000000108535459300000000000000112040345610914575021066497422000000000000001120403456108334272810464083840000000000000011204034560000000000000000000000000000000000112040345600000000000000000000000000000000001120403456000000000000000000000000000000000011204034560000000000000000000000000000000000112040345600000000000000000000000000000000001120403456000000000000000000000000000000000011204034560000000000000000000000000000000000112040345600000000000000000000000000000000001120403456000000000000000000001023483471000011204034560000000000000000000000000000000000)
 (.leaf 11204034560000000000000000000000000000000000112040345600000000000000000000000000000000001120403456000000000000000000000000000000361911193548800000000000000000000010516271473620108435114800000000000000000000103847346100001120403456000000000000000000001033260028000011204034560000000000000000000000000000000000112040345600000000000000000000000000000000001120403456000000000000000000000000000000000011204034560000000000000000000000000000003621112040345600000000000000000000000000000000001120403456000000000000000000000000000000000011204034561016831897000000000000000000000000112040345610184113710000000000000000000036221120403456000000000000000000000000000000000011204034560000000000000000000000000000000000)))
 (.node 2 (.node 1 (.leaf 10936647680000000000000000000000000000000000112040345600000000000000000000000000000036231120403456000000000000000000000000000000000011204034560000000000000000000000000000000000112040345600000000000000000000000000000000001120403456000000000000000000000000000000000011204034560000000000000000000000000000000000112040345600000000000000000000000000000000001120403456000000000000000000000000000000362411204034560000000000000000000000000000003625112001024000000000000000000000000000000036261076219693000000000000000000000000000000000011204034560000000000000000000000000000000000112040345600000000000000000000102251953500001120403456000000000000000000001060700609000011204034560000000000000000000000000000000000)
 (.leaf 11204034560000000000105736055010592585830000112040345600000000001087625809000000000000001120403456000000000010907583250000000000000011204034560000000000108344031300000000000000112040345600000000001097011927000000000000001120403456000000000000000000000000000000000011204034560000000000000000000000000000000000107227566300000000000000000000000000000000001051982513000000000000000000000000000000000010647393880000000000000000000000000000000000112040345600000000000000000000000000000000001120403456000000000000000000000000000000000011204034560000000000000000000000000000000000112040345600000000000000000000000000000000001120403456000000000010909885920000000000000011204034560000000000000000000000000000000000))
 (.node 1 (.leaf 11204034560000000000000000000000000000000000112040345600000000000000000000000000000000001120403456000000000000000000000000000000000011204034560000000000000000000000000000000000112040345600000000000000000000000000000000001120403456096691847100000000000000000000000011204034560000000000000000000000000000000000112040345600000000000000000000000000000000001120403456000000000000000000000000000000000011204034560000000000000000000000000000000000112040345600000000000000000000000000000000001120403456000000000000000000000000000000000011204034560000000000000000000000000000000000112040345600000000000000000000000000000000001120403456000000000000000000000000000000000011204034560000000000000000000000000000000000)
 (.leaf 11204034560000000000000000000000000000000000112040345600000000000000000000000000000036271120403456000000000000000000000000000000000011204034560000000000000000000000000000000000110048051200000000000000000000000000000036281109131264000000000000000000001061771540000011204034560000000000000000000010493055210000112040345600000000000000000000000000000000001120403456000000000000000000000000000000000011204034560000000000000000000000000000000000112040345600000000000000000000000000000036291120403456000000000000000000000000000000000011204034560000000000000000000000000000000000112040345600000000000000000000000000000000001120403456000000000000000000001052465316000011204034560000000000000000000010585169190000)))))))
 (.node 32 (.node 16 (.node 8 (.node 4 (.node 2 (.node 1 (.leaf 11204034560000000000000000000000000000000000112040345610865545040000000000100813274600001120403456000000000000000000000000000000000011204034560000000000000000000000000000000000111201484810822645031025705299103752570636301070804888000000000000000000000000000000000011156848640000000000000000000010086367600000112040345600000000000000000000000000000000001120403456000000000000000000001028211787363111204034560000000000000000000000000000003632112040345600000000000000000000000000000036331120403456000000000000000000000000000000363411204034560000000000000000000010225701493635112040345600000000000000000000000000000036361120403456000000000000000000000000000000000011004805120000000000000000000000000000000000)
 (.leaf 11204034560000000000000000000009642573363637112040345600000000000000000000000000000000001120403456000000000000000000000000000000000011204034560000000000108601561600000000000000112040345600000000000000000000000000000000001120403456000000000010840256280000000000000011204034560000000000106072102700000000000000112040345600000000000000000000000000000000001120403456000000000000000000000000000000000011204034560000000000000000000000000000000000110048051200000000000000000000000000000000001116078080000000000000000000000000000000000011204034560000000000000000000000000000000000112040345600000000001024336278000000000000001120403456000000000000000000001036235306000011204034560000000000000000000000000000000000))
 (.node 1 (.leaf 11204034560000000000000000000000000000000000112040345600000000000000000000000000000000001120403456108629897700000000000000000000000011204034560000000000000000000000000000000000112040345600000000000000000000000000000000001120403456000000000000000000000000000000000011204034560000000000000000000000000000000000108632473600000000000000000000104604411300001086324736000000000000000000000000000000000011204034560000000000000000000010493301783638112040345600000000000000000000000000000000001120403456000000000000000000000000000000000011204034560000000000000000000000000000000000112040345600000000000000000000000000000000001120403456000000000010515254350000000000000011204034560000000000102624217010426303900000)
 (.leaf 11204034560000000000000000000010664325660000112040345600000000000000000000000000000000001120403456110336562610474888361030459627000011204034560000000000000000000000000000000000112040345600000000000000000000000000000000001120403456000000000000000000000000000000000011204034560000000000000000000000000000000000112040345600000000000000000000000000000000001120403456000000000000000000000000000000000011075584001076888399101618926210536056983639112040345600000000000000000000000000000000001120403456000000000010360669081057272318364011204034560000000000000000000000000000000000111935488000000000000000000000000000000000001120403456000000000000000000000000000000364111036262400000000000000000000000000000000000)))
 (.node 2 (.node 1 (.leaf 10746006920000000000000000000000000000000000111673344000000000000000000000105362605600001120403456000000000000000000000000000000000011204034560000000000000000000010517921700000112040345600000000000000000000000000000000001120403456000000000000000000001035519914000011175198720000000000000000000000000000000000111856844800000000000000000000000000000000001112801280000000000000000000000000000000000010357221430000000000000000000000000000000000109681049600000000000000000000000000000000001120403456000000000000000000000000000000000011204034560000000000000000000000000000000000110205337600000000000000000000000000000000001111228416000000000000000000000000000000000011204034560000000000000000000000000000000000)
 (.leaf 11204034560000000000000000000000000000000000112040345610643639140000000000000000000036421120403456000000000000000000000000000000000011204034560000000000000000000010605059180000112040345600000000000000000000104357189300001120403456000000000000000000000000000000000011204034560000000000000000000000000000000000112040345600000000000000000000000000000000001120403456000000000000000000000000000000364311204034560000000000000000000000000000003644112040345600000000000000000000000000000000001120403456000000000000000000001057314705000011204034560000000000000000000000000000000000112040345600000000000000000000000000000000001120403456000000000000000000000000000000000011204034560000000000000000000000000000000000))
 (.node 1 (.leaf 11204034560000000000000000000000000000000000112040345600000000000000000000107813289800001120403456000000000000000000001040352414000011204034561080975581000000000000000000000000111856844800000000000000000000000000000000001118961664000000000000000000000000000000000011204034560000000000000000000000000000000000112040345600000000000000000000000000000000001120403456000000000000000000000000000000000011128012800000000000000000000010794648423645109366476800000000000000000000101984872000001105199104000000000000000000001032824121364611181752320000000000000000000010527219493647112040345600000000000000000000000000000000001116733440000000000000000000000000000000364810968104960000000000000000000000000000003649)
 (.leaf 10873265240000000000000000000010450582820000109366476800000000000000000000000000000000001072256369000000000000000000000000000000000010905190400000000000000000000000000000000000110362624000000000000000000000000000000000001073768793000000000000000000000000000000000010795315990000000000000000000000000000000000112001024000000000000000000000104392901600001120403456000000000000000000001066216514000011204034560000000000000000000010407934310000112040345600000000000000000000105892865200001068883142000000000000000000000000000000000010282027960000000000000000000000000000000000106016363700000000000000000000000000000000001048267031000000000000000000000000000000000011075584000000000000000000000000000000000000))))
 (.node 4 (.node 2 (.node 1 (.leaf 11204034560000000000000000000000000000003650100898177000000000000000000000000000000000001120010240000000000000000000000000000000000011204034560000000000000000000000000000000000112040345600000000000000000000000000000000001120403456000000000000000000000000000000000011204034560000000000000000000000000000000000112040345600000000000000000000000000000000001120403456000000000000000000000000000000365111204034560000000000000000000000000000000000112040345600000000000000000000000000000036521119354880000000000000000000001019252506365310905190400000000000000000000000000000000000112040345600000000000000000000000000000000001120403456000000000000000000000000000000000011204034560000000000000000000000000000000000)
 (.leaf 11204034560000000000000000000000000000000000112040345600000000000000000000000000000000001120403456000000000000000000001067815738000011204034560000000000000000000010454992090000112040345600000000000000000000102862853000001120403456000000000000000000000000000000365410994319360000000000108231498100000000000000106802599400000000000000000000000000000000001109131264000000000000000000000000000000000011141120000000000000000000000000000000000000111712665600000000000000000000107071983600001117126656000000000000000000001072728918000011067719680000000000000000000010776808420000108632473600000000000000000000000000000000001111228416000000000010756191941065049917000011036262400000000000103200011109817682150000))
 (.node 1 (.leaf 10994319360000000000000000000000000000000000112040345600000000000000000000103507375100001117913088000000000000000000001049305919000010994319360000000000000000000000000000000000105986763700000000000000000000000000000000001093664768000000000000000000001034932940000011148984320000000000000000000010502315970000107214152900000000000000000000000000000000001099431936000000000000000000000000000000000011148984320000000000000000000000000000000000112040345600000000000000000000103931581736551120403456000000000000000000000000000000000011204034560000000000000000000000000000000000112040345611012933430000000000000000000000001120403456000000000000000000001025616738000011204034560000000000000000000000000000003656)
 (.leaf 11204034560000000000000000000010420858410000100898177000000000000000000000000000000000001086324736000000000000000000001074954164000011083448320000000000000000000010487887550000112040345600000000000000000000000000000000001120403456000000000000000000001052023655000011204034560000000000000000000000000000000000112040345600000000001075837298104605742500001120403456000000000000000000000000000000000011204034560000000000000000000000000000000000112040345600000000000000000000000000000000001120403456000000000000000000001046962022000011204034560000000000000000000010440168130000112040345600000000000000000000106181690300001120403456000000000000000000001049684669000011204034560000000000000000000010477773910000)))
 (.node 2 (.node 1 (.leaf 11091312640000000000000000000000000000000000100898177000000000000000000000000000000000001027088869000000000000000000000000000000000010628838110000000000000000000010110350370000106814058300000000000000000000000000000000001096810496000000000000000000000000000000000011099176960000000000000000000000000000000000109943193600000000000000000000000000000000001099431936000000000000000000000000000000365711204034560000000000000000000010259099733658112040345600000000000000000000000000000000001120403456000000000000000000001030120294000011204034560000000000000000000010236680073659111935488000000000000000000000104119075700001099431936000000000000000000001070561378000011120148481075752531000000000010597337920000)
 (.leaf 11200102401071768572000000000010685341663660111122841600000000000000000000000000000000001106771968000000000000000000000000000000000011204034560000000000000000000010475858540000112040345600000000001026483762000000000000001120403456000000000000000000000000000000000011204034560000000000000000000000000000000000112040345600000000000000000000000000000000001120403456000000000000000000000000000000000011104419840000000000000000000000000000000000111712665600000000000000000000000000000000001105199104000000000000000000000000000000000011067719680000000000000000000000000000000000112040345600000000000000000000000000000000001120403456000000000000000000000000000000000011204034561099407413103477841810412568550000))
 (.node 1 (.leaf 11204034560000000000000000000000000000003661112040345600000000000000000000000000000036621120403456000000000000000000000000000000366311204034560000000000000000000000000000003664112040345600000000000000000000000000000000001109917696000000000000000000001043617235000010779361281046002644000000000000000000000000111673344000000000000000000000105708970700001119617024000000000000000000001082626208366511204034560000000000000000000000000000000000112040345600000000000000000000103644154736661120403456000000000000000000001074097130366711204034560000000000000000000010601884993668112040345600000000000000000000000000000000001120403456000000000000000000000000000000000011204034560000000000000000000000000000000000)
 (.leaf 11204034560000000000000000000000000000000000112040345600000000000000000000000000000000001120403456000000000000000000001049305016000011204034560000000000000000000000000000000000108317825300000000000000000000000000000000001077936128000000000000000000000000000000000010672582690000000000000000000000000000000000112040345600000000000000000000000000000000001120403456000000000000000000001023879069000011204034560000000000000000000000000000000000112040345600000000000000000000000000000036691120403456000000000000000000000000000000000011204034560000000000000000000000000000003670112040345600000000000000000000104024643236711120403456000000000000000000001035657770000010905190400000000000000000000010559683480000)))))
 (.node 8 (.node 4 (.node 2 (.node 1 (.leaf 11185684480000000000000000000010491350340000111201484800000000000000000000104885227900001120403456103481626700000000001007688407000011204034560000000000000000000010585418320000112040345600000000000000000000104095837900001120403456000000000000000000000000000000000011204034560000000000000000000000000000000000112040345600000000000000000000000000000000001120403456109972939210765515880000000000000011204034560000000000000000000000000000000000112040345600000000000000000000000000000000001120403456000000000000000000000000000000000011204034560000000000000000000010604066870000112040345600000000000000000000000000000000001120403456000000000000000000000000000000000011128012800000000000000000000010746970370000)
 (.leaf 11099176960000000000000000000010568972860000112040345600000000000000000000105740361800001120403456000000000000000000001011019306000011204034560000000000000000000010247996100000112040345600000000000000000000104252845836721120403456000000000000000000000000000000367311204034560000000000000000000000000000003674112040345600000000000000000000000000000036751120403456000000000000000000000000000000367611204034560000000000000000000000000000003677112040345600000000000000000000104069206900001118961664000000000000000000001044780989000010762844530000000000000000000000000000000000110048051200000000000000000000103656458500001114898432000000000000000000001080911163367810994319360000000000000000000000000000000000))
 (.node 1 (.leaf 11120148480000000000000000000000000000000000109681049600000000000000000000000000000000001116733440000000000000000000000000000000000011204034560000000000000000000010385607273679112040345600000000001064509322000000000000001120403456000000000000000000000000000000000011204034560000000000000000000000000000000000112040345600000000000000000000000000000000001120403456000000000000000000001085205734000011204034560000000000000000000010610802330000112040345600000000000000000000000000000000001120403456000000000000000000001041373214000011204034560000000000000000000010255493330000112040345600000000000000000000000000000000001120403456000000000000000000000000000000000010968104960000000000000000000010526856200000)
 (.leaf 10828657770000000000000000000000000000000000112040345600000000000000000000102222018900001120403456000000000000000000001048320392368011204034560000000000000000000010681056883681112040345600000000000000000000000000000000001120403456000000000000000000001059138684368211204034560000000000000000000010266939143683112040345600000000000000000000000000000036841120403456000000000000000000000000000000368511204034560000000000000000000000000000000000112040345600000000000000000000000000000000001120403456000000000000000000000000000000000011204034560000000000000000000000000000000000106339563400000000000000000000000000000000001120403456000000000000000000001068592034000011204034560000000000000000000010297472740000)))
 (.node 2 (.node 1 (.leaf 11204034560000000000000000000010605216330000112040345600000000000000000000101516858400001120403456000000000000000000000000000000000011204034560000000000000000000000000000000000112040345600000000001068423447000000000000001120403456000000000010520891490000000000000011204034560000000000106096597400000000000000112040345600000000000000000000106563710800001120403456000000000000000000000000000000000011204034560000000000000000000000000000000000112040345600000000000000000000104172234300001120403456000000000000000000000000000000000011204034560000000000000000000010524894900000112040345600000000000000000000104064259000001120403456000000000000000000000000000000000011204034560000000000000000000000000000000000)
 (.leaf 11204034560000000000000000000010184871220000107447729500000000000000000000000000000000001112801280000000000000000000001077845561000011204034560000000000000000000000000000000000112040345600000000000000000000105550166800001120403456000000000000000000001064105797000011204034560000000000000000000010690563590000112040345600000000000000000000106021411036861120403456000000000000000000001040767303368711204034560000000000000000000000000000003688112040345600000000000000000000000000000036891120403456000000000000000000000000000000369011204034560000000000000000000000000000000000111568486400000000000000000000104622010100001112014848000000000000000000001040872663000010994319360000000000000000000010375257100000))
 (.node 1 (.leaf 10089817700000000000000000000000000000000000110677196800000000000000000000107543874400001120403456000000000000000000001061469502369111156848640000000000000000000000000000003692111358771200000000000000000000000000000000001116078080000000000000000000000000000000000010811362140000000000000000000000000000000000111935488000000000000000000000107362248300001120403456000000000000000000000000000000000011204034560000000000000000000010237138503693112040345610440154830000000000000000000000001120403456109112119400000000000000000000369411204034561009604540000000000000000000000000112040345610872921251063757703000000000000001120403456000000000000000000000000000000000011204034560000000000000000000000000000000000)
 (.leaf 11204034560000000000105438762800000000000000112040345600000000000000000000104918392300001120403456000000000000000000000000000000000011204034560000000000000000000000000000000000112040345600000000000000000000104917738200001118961664000000000000000000001023796342000011091312640000000000000000000000000000000000111122841600000000000000000000000000000000001115684864000000000000000000000000000000000011179130880000000000000000000010443662360000112040345600000000000000000000107747189536951117519872000000000000000000001020232307000011204034560000000000000000000010191712413696112040345600000000000000000000104378223336971112014848000000000000000000001078464300000011204034560000000000000000000000000000000000))))
 (.node 4 (.node 2 (.node 1 (.leaf 11204034560000000000000000000010628868850000112040345600000000000000000000000000000000001115684864000000000000000000000000000000000011204034560000000000000000000000000000000000112040345600000000000000000000105776827400001120403456000000000000000000001082556034000011204034560000000000000000000000000000000000112040345600000000000000000000103366599700001120403456000000000000000000000000000000000011204034560000000000106368556110494467600000111961702400000000000000000000000000000000001110441984000000000000000000001057379875000010636489860000000000000000000000000000000000111122841600000000000000000000000000000000001111228416000000000000000000000000000000369810205594450000000000000000000000000000000000)
 (.leaf 10089817700000000000000000000000000000000000107793612800000000000000000000000000000000001110441984000000000000000000000000000000000011141120000000000000000000000000000000000000110362624000000000000000000000000000000000001052010967000000000000000000000000000000000010936647680000000000000000000000000000000000111751987200000000000000000000000000000000001120403456000000000000000000000000000000000011204034560000000000000000000010402094200000112040345600000000000000000000107388572300001093664768000000000000000000000000000000000011204034560000000000000000000010795861413699112040345600000000000000000000107397085500001120403456000000000000000000001058995310000011204034560000000000000000000010245966133700))
 (.node 1 (.leaf 11204034561073592398000000000000000000000000112040345609769048070000000000000000000000001120403456000000000000000000000000000000000011204034561024996093000000000010392774030000111411200000000000001059326840000000000000001077936128000000000000000000000000000000000010338075130000000000000000000000000000000000109051904000000000000000000000000000000000001043717117000000000000000000000000000000000010638794720000000000000000000000000000000000110205337600000000000000000000000000000000001120403456000000000000000000000000000000000011204034560000000000000000000000000000003701112040345600000000000000000000000000000037021120403456000000000000000000000000000000000011196170241016806127000000000010075019940000)
 (.leaf 11004805120000000000000000000010389647330000109366476800000000000000000000000000000000001120403456000000000000000000001071604994370311204034560000000000000000000010684407603704112040345600000000000000000000000000000000001120403456000000000000000000000000000000370511204034560000000000000000000000000000000000112040345600000000000000000000000000000000001120403456109625805800000000000000000000000010994319360000000000000000000000000000000000109681049600000000000000000000000000000000001024255265000000000000000000000000000000000011004805120000000000000000000000000000000000109366476800000000000000000000000000000000001068437623000000000000000000000000000000000010905190400000000000000000000000000000000000)))
 (.node 2 (.node 1 (.leaf 11204034560000000000000000000000000000000000112040345600000000000000000000107951914500001120403456000000000000000000001079719543000011204034561049014523000000000000000000003706112040345600000000000000000000000000000000001120403456000000000000000000000000000000000011204034560000000000000000000000000000000000112040345610776934250000000000000000000000001120403456000000000010645932080000000000000010994319360000000000109925713800000000000000107667100000000000000000000000000000000000001077936128000000000000000000001018841827000010779361280000000000000000000000000000000000108166297700000000000000000000000000000000001008981770000000000000000000000000000000000010779361280000000000000000000000000000000000)
 (.leaf 11099176960000000000000000000010633644070000100898177000000000000000000000000000000000001120403456000000000000000000000000000000000011128012800000000000000000000000000000000000111634022400000000000000000000000000000000001120403456000000000000000000001035707242370711204034560000000000000000000010846244323708112040345600000000000000000000000000000000001120403456000000000000000000000000000000000011204034560000000000000000000010346295790000111856844800000000000000000000000000000000001113587712000000000000000000000000000000000011196170240000000000000000000000000000000000112040345610680214221057451147000000000000001109917696000000000000000000000000000000000011075584000000000000000000000010246452070000))
 (.node 1 (.leaf 10905190400000000000000000000000000000000000103195771100000000000000000000000000000000001077936128000000000000000000001018635660000011020533760000000000000000000010427903430000110834483200000000000000000000000000000000001116340224000000000000000000001065498946000010749463860000000000000000000000000000000000112040345600000000000000000000000000000000001116340224000000000000000000000000000000000011167334400000000000000000000010086047170000112040345600000000000000000000106572002737091120403456000000000000000000001072666264371011204034560000000000000000000010778461283711112040345600000000000000000000000000000000001120403456000000000000000000000000000000000011204034560000000000000000000010449870540000)
 (.leaf 11204034560000000000000000000010543727810000112040345600000000000000000000000000000000001120403456000000000000000000000000000000000011204034560000000000000000000000000000000000107486010900000000000000000000000000000000001107558400000000000000000000001033223258000011204034560000000000000000000000000000000000112001024000000000000000000000104610109400001120403456000000000000000000000000000000000011135877120000000000000000000000000000000000111791308800000000000000000000000000000000001120403456000000000000000000000000000000371211185684481059512866000000000000000000000000110913126400000000000000000000102801490900001107558400000000000000000000001045838695000011167334400000000000000000000000000000000000))))))
 (.node 16 (.node 8 (.node 4 (.node 2 (.node 1 (.leaf 10905190400000000000000000000000000000000000111044198400000000000000000000106864838500001120403456000000000000000000001071285572000011204034560000000000000000000000000000000000112040345600000000000000000000000000000000001120403456000000000000000000000000000000000011204034560000000000000000000000000000000000112040345600000000000000000000000000000000001120403456000000000000000000000000000000000011204034560000000000000000000010391215370000112040345600000000000000000000104791520400001120403456000000000000000000000000000000000011204034560000000000000000000010430536083713112040345600000000000000000000107221650237141120403456000000000000000000001060943937371511204034560000000000000000000010181751040000)
 (.leaf 11135877120000000000000000000000000000000000112040345610426351210000000000106894685900001120403456106649835300000000000000000000000010863247360000000000000000000000000000000000110519910400000000000000000000000000000000001119354880000000000000000000000000000000000010994319360000000000000000000010472654000000112001024000000000000000000000105929437700001120403456000000000000000000001065360969000011204034560000000000000000000000000000000000112040345600000000000000000000000000000000001120403456000000000000000000000000000000000011204034560000000000000000000000000000000000112040345600000000000000000000000000000000001120403456000000000000000000000000000000000011051991040000000000104836796300000000000000))
 (.node 1 (.leaf 11148984320000000000106653852610681673460000112040345600000000000000000000000000000037161120403456000000000000000000001071034655371711204034560000000000000000000010645933243718112040345600000000000000000000108232579100001120403456000000000000000000001056715393000011020533760000000000000000000000000000000000112040345600000000000000000000106568675900001120403456000000000000000000001056311339000011204034560000000000000000000010493729570000101750234100000000000000000000000000000000001108344832000000000000000000001055300955000011185684480000000000000000000010797140130000107793612800000000000000000000000000000000001120403456000000000010544245371067329133371911204034560000000000106387346610875480223720)
 (.leaf 11204034560000000000000000000010403340300000112040345600000000000000000000000000000000001120403456000000000000000000000000000000000011204034560000000000000000000000000000000000110991769600000000001054112481000000000000001111228416000000000010661232901006972374000011020533760000000000000000000010194407080000112040345600000000000000000000103261639137211116733440000000000000000000000000000000000010863247360000000000000000000000000000000000110362624010558417420000000000105143466700001120403456107219370600000000001058590198000011204034560000000000000000000010686543530000111044198400000000000000000000105484038700001112801280000000000000000000001074359121000010863247360000000000000000000010258521660000)))
 (.node 2 (.node 1 (.leaf 11204034560000000000000000000010620446960000112040345600000000000000000000104283725100001120403456000000000010751905371050291763000011204034560000000000105215625800000000000000112040345600000000000000000000000000000000001120403456000000000000000000000000000000000011067719680000000000000000000000000000000000107793612800000000000000000000000000000000001106771968000000000000000000000000000000000011204034560000000000000000000000000000003722109943193600000000000000000000000000000000001026719072000000000000000000000000000000000010905190400000000000000000000010644444430000111568486400000000000000000000108132017100001120403456105113214300000000001068996634372311204034561088407697000000000010684897790000)
 (.leaf 11204034561079114383000000000010650097150000107793612800000000000000000000000000000000001107558400000000000000000000001050352415000010968104960000000000000000000010588339120000108632473600000000000000000000000000000000001077936128000000000000000000001039229542000010968104960000000000000000000010416625710000112040345600000000000000000000105279221537241120403456000000000000000000001042181659000011204034560000000000000000000010411245450000112040345600000000000000000000000000000000001120403456000000000000000000000000000000000010089817700000000000000000000000000000000000107793612800000000000000000000000000000000001096810496000000000000000000000000000000000010438675750000000000000000000000000000000000))
 (.node 1 (.leaf 11135877121070106109000000000010594146440000111935488010300663020000000000105949308337251120403456105273024000000000001050527182372611204034560000000000000000000010293534633727112040345610640013410000000000104663284337281112014848000000000000000000000000000000372910898623170000000000000000000010383590760000111280128000000000000000000000105978195100001102053376000000000000000000001062055540000011083448320000000000000000000010734844650000111935488000000000000000000000107495976500001120403456000000000000000000001048789811000011204034560000000000000000000010589961670000112040345600000000000000000000105205766500001120403456000000000000000000001055446387000011204034560000000000000000000000000000000000)
 (.leaf 11204034560000000000105723472110602147263730112040345600000000000000000000105850775800001120403456000000000000000000000000000000000011163402240000000000000000000010666819920000112040345600000000000000000000103375081600001120403456097948178700000000001037121863373111204034560000000000000000000010481941103732112040345610445007470000000000104418887900001077936128000000000000000000001036867288000011160780800000000000000000000010727673320000110834483200000000000000000000106718943200001116733440000000000000000000001057172403000011204034560000000000000000000010845831690000112040345600000000000000000000107407902500001120403456000000000000000000001043770086000011204034560000000000000000000010240831410000))))
 (.node 4 (.node 2 (.node 1 (.leaf 10994319360000000000000000000010349083030000111791308800000000000000000000105069076037331120403456000000000000000000001064062044373411204034560000000000000000000010551713013735112040345600000000000000000000104092328937361077902196000000000000000000000000000000000011128012800000000000000000000010805973240000111201484800000000000000000000107439490700001120403456000000000000000000001058737750000011204034560000000000000000000010576741380000112040345600000000000000000000000000000000001120403456000000000000000000001057616636373711204034560000000000000000000000000000003738111935488000000000000000000000000000000000001086047262000000000000000000000000000000000011020533760000000000000000000010236744400000)
 (.leaf 11196170240000000000000000000010537660673739112040345600000000000000000000105281263237401120403456000000000000000000001058014847374111204034560000000000000000000000000000003742111856844800000000000000000000000000000000001077936128000000000000000000000000000000000011112284160000000000000000000010784750210000111201484800000000000000000000108176082700001119617024000000000000000000001065881339000011204034560000000000000000000010762202470000112040345600000000000000000000107782686700001120403456000000000000000000001067715703000011204034560000000000000000000010689873640000112001024000000000000000000000000000000000001117913088000000000000000000001042262414000011204034560000000000000000000010826661313743))
 (.node 1 (.leaf 11204034560000000000000000000010572423140000112040345600000000000000000000000000000000001120403456000000000000000000000000000000374411083448320000000000000000000010517591940000110205337600000000000000000000107556685600001119354880106623551300000000001080172051374511200102401079067281000000000010817031823746112040345600000000000000000000107159837800001120403456000000000000000000001033060532374711204034560000000000000000000010719767923748112040345610365239191079421750000000000000001120403456109402469110938900020000000000000011204034560000000000000000000010330752940000112040345600000000001054961408104031757300001088403496000000000000000000000000000000000011051991040000000000000000000010539343420000)
 (.leaf 11204034560000000000000000000000000000000000109366476800000000000000000000106681208700001107558400000000000000000000001075277409000011141120000000000000000000000010828517753749111568486400000000001081008456107173514937501119617024000000000000000000001066856650375111204034560000000000000000000010720996340000112040345600000000000000000000104983522837521120403456104398588800000000001024261591000010985722090000000000000000000000000000000000100898177000000000000000000000000000000000001107558400000000000000000000000000000000000010994319360000000000000000000000000000000000110205337600000000000000000000000000000000001086324736000000000000000000000000000000000011200102400000000000000000000010798125900000)))
 (.node 2 (.node 1 (.leaf 11204034560000000000000000000010760683480000112040345600000000000000000000108263966237531120403456000000000000000000001064409171000011204034560000000000000000000010542554460000112040345600000000000000000000104872665200001120403456000000000000000000001023218030000011204034560000000000000000000010514606980000110913126400000000001062776236102219815700001102053376000000000000000000000000000000000010863247360000000000000000000000000000000000110362624000000000000000000000106845242100001112801280000000000000000000001078035071000011196170241066669036000000000010910730620000112040345610320453420000000000106382597300001120403456000000000000000000001086473892000011204034560000000000000000000010791610720000)
 (.leaf 11204034560000000000000000000010630252740000112040345600000000000000000000104103298500001120403456000000000000000000001044034420000011204034560000000000000000000010327457350000112040345600000000000000000000000000000000001120403456107490617100000000000000000000000011181752320000000000000000000010734245450000111673344000000000000000000000106687532300001116340224000000000000000000001071850010000011204034560000000000000000000010744833630000112040345600000000000000000000104905859600001120403456000000000000000000001029865551000011204034560000000000000000000010679753130000112040345600000000000000000000106867018300001119354880000000000000000000001071147345000011099176960000000000000000000010508316840000))
 (.node 1 (.leaf 10863247360000000000000000000010737889370000111935488000000000000000000000106841063000001119617024000000000000000000001078201277000011204034560000000000000000000010596470620000112040345600000000000000000000104165555937541120403456000000000000000000001067568565000011204034560000000000000000000010587914270000112040345600000000000000000000105777896300001086324736000000000000000000000000000000000010989527890000000000000000000010525806290000110170011000000000000000000000105190749600001093664768000000000000000000001043337801000011167334400000000000000000000010688825870000112001024000000000000000000000108044026400001120403456000000000000000000001079785249000011204034560000000000000000000000000000003755)
 (.leaf 11204034560000000000000000000010624259743756112040345600000000000000000000107351301037571120403456000000000000000000001042032330000011204034560000000000000000000010667181733758100898177000000000000000000000000000000000001108665014000000000000000000001068616731000011185804680000000000000000000010794829260000111222621500000000000000000000108009411000001113198297000000000000000000001070702373000010905190400000000000000000000010375919590000111280128000000000000000000000106976673400001118568448000000000000000000001079191371000011193548800000000000000000000010609229500000112040345600000000000000000000105382969537591120403456000000000000000000001046674631000010089817700000000000000000000000000000000000)))))
 (.node 8 (.node 4 (.node 2 (.node 1 (.leaf 11006111120000000000000000000010385549400000110127973600000000000000000000104809518600001103814354000000000000000000001035892255000011002255510000000000000000000000000000000000106636471400000000000000000000000000000000001115684864000000000000000000001066696163000011091312640000000000000000000010650047980000112001024000000000000000000000103813468400001103626240000000000000000000001046095866000011112284160000000000000000000010622386510000111712665600000000000000000000107541167300001117519872000000000000000000001065444087000011204034560000000000000000000010582718020000112040345600000000000000000000105046343900001120403456000000000000000000001037347557000011204034560000000000000000000010326975940000)
 (.leaf 11204034560000000000000000000010623376100000108462765800000000000000000000000000000000001102327998000000000000000000000000000000000010936647680000000000000000000010367626090000111122841600000000000000000000106484135400001105199104000000000000000000001068604397000011163402240000000000000000000010740183840000112040345600000000000000000000108428144700001120403456000000000000000000001063681514000011204034560000000000000000000010499225440000108632473600000000000000000000000000000000001093664768000000000000000000000000000000000011020533760000000000000000000010160909710000109943193600000000000000000000103234848800001108344832000000000000000000001050196046000010994319360000000000000000000010366295820000))
 (.node 1 (.leaf 11120148480000000000000000000010526578180000110913126400000000000000000000105555092200001114112000000000000000000000001069342591000011200102400000000000000000000010645538140000112040345600000000000000000000108500584100001102053376000000000000000000000000000000000011175198720000000000000000000010717245780000111673344000000000000000000000105364581500001114898432000000000000000000001057843438000011189616640000000000000000000010579289370000111358771200000000000000000000106294620300001093664768000000000000000000001036287649000010689259240000000000000000000000000000000000110991769600000000000000000000104225662000001105199104000000000000000000001053178072000011141120000000000000000000000010585901040000)
 (.leaf 11204034560000000000000000000010724209400000112040345600000000000000000000107062827500001120403456000000000000000000001078966902000011204034560000000000000000000010335826970000112040345600000000000000000000105800741837601120403456000000000000000000001046027054000011204034560000000000000000000010402120750000110991769600000000000000000000000000000000001114898432000000000000000000001061799381000011051991040000000000000000000000000000000000109681049600000000000000000000105593273100001093664768000000000000000000000000000000000011075584000000000000000000000010384736030000109366476800000000000000000000102979039700001099431936000000000000000000001031005387000011020533760000000000000000000010355006770000)))
 (.node 2 (.node 1 (.leaf 11083448320000000000000000000010627426830000111673344000000000000000000000107175261600001120010240000000000000000000001074638864000011204034560000000000000000000010725706860000112040345600000000000000000000104896750600001111228416000000000000000000001050232865000011135877120000000000104184498110398403180000111791308800000000000000000000000000000000001117126656000000000010733039391049882352000010994319360000000000108288645500000000000000108455121600000000000000000000000000000000001108344832000000000000000000001059753584000011135877120000000000000000000010622599330000111201484800000000000000000000106493521700001117126656000000000000000000001073947137000011204034560000000000000000000010587636870000)
 (.leaf 11204034560000000000000000000010507544800000112040345600000000000000000000106191140200001099431936000000000000000000000000000000000011171266560000000000000000000010835216960000111712665600000000000000000000104158538100001118961664000000000000000000001072591411000011204034560000000000109107551910777176520000108875627900000000000000000000000000000000001095026449000000000000000000001019918392000010968104960000000000000000000010282824120000111817523200000000000000000000107643523700001119617024000000000000000000001057830025000011163402240000000000000000000010621041020000111712665600000000000000000000105836662300001117126656000000000000000000001058511391000011120148480000000000000000000010584832100000))
 (.node 1 (.leaf 11036262400000000000000000000010235730370000111634022400000000001074048847105156712700001120010240000000000010814350161080871765376111067719680000000000000000000010252846130000110755840000000000000000000000105232990200001114898432000000000000000000001050642603000011171266560000000000000000000010587482960000111607808000000000000000000000103858065000001113587712000000000000000000001047129235000011175198720000000000000000000010238818120000111856844800000000000000000000107147086037621120403456000000000000000000001065702817376311204034560000000000000000000000000000000000112040345600000000000000000000108465622937641110441984000000000000000000000000000000000010987902070000000000000000000000000000000000)
 (.leaf 11086368340000000000000000000000000000000000111437217800000000000000000000104209330900001103960474000000000000000000000000000000000010297959070000000000000000000000000000000000100898177000000000000000000000000000000000001108344832000000000000000000001054961396000011128012800000000000000000000010566943950000111935488000000000000000000000106178778200001117519872000000000000000000001055378805000011185684480000000000000000000010443430470000112001024000000000000000000000106246712400001119354880000000000000000000001066866192376511193548800000000000000000000010586734063766112001024000000000000000000000000000000000001119354880000000000000000000000000000000000011036262400000000000000000000000000000000000))))
 (.node 4 (.node 2 (.node 1 (.leaf 10905190400000000000000000000000000000000000109943193600000000000000000000000000000000001111240370000000000000000000000000000000000010939587890000000000000000000000000000000000108858928300000000000000000000000000000000001008981770000000000000000000000000000000000011036262400000000000000000000010473293150000110048051200000000000000000000103971941200001117913088000000000000000000001061284242000011179130880000000000000000000010592364280000111896166400000000000000000000105805438800001113587712000000000000000000001033267080000011112284160000000000000000000010727198600000110048051200000000000000000000000000000000001093664768000000000000000000001034355347000011004805120000000000000000000000000000000000)
 (.leaf 11020533760000000000000000000000000000000000110205337600000000001056558599103239144500001120403456000000000010536460750000000000376711204034560000000000000000000000000000000000112040345600000000000000000000000000000000001120403456000000000000000000000000000000000011204034560000000000000000000000000000000000112040345600000000000000000000000000000000001096810496000000000000000000000000000000000010779361280000000000000000000000000000000000112040345600000000000000000000000000000000001120403456000000000000000000000000000000000011196170240000000000000000000010591964360000111856844800000000000000000000105627589600001120403456000000000000000000000000000000000011204034560000000000000000000000000000000000))
 (.node 1 (.leaf 11204034560000000000000000000000000000000000111791308800000000000000000000105320060900001112014848000000000000000000000000000000000011179130880000000000000000000000000000000000112040345600000000000000000000000000000000001120403456000000000000000000001047351789000011204034560000000000000000000000000000000000112040345600000000000000000000000000000000001120403456000000000000000000001083066981000011204034560000000000000000000000000000000000112040345600000000000000000000103320720200001120403456000000000000000000000000000000000011204034560000000000000000000000000000000000112040345600000000000000000000000000000000001120403456000000000000000000000000000000000011204034560000000000000000000000000000000000)
 (.leaf 11204034560000000000000000000000000000000000112040345600000000000000000000000000000000001120403456000000000000000000001036299391000011204034560000000000000000000010551172830000112001024000000000000000000000104944352300001120403456000000000000000000001052174739000011204034560000000000000000000010540423600000112040345600000000000000000000000000000000001120403456000000000000000000000000000000000011189616640000000000000000000000000000000000112040345600000000000000000000000000000000001120403456000000000000000000001072805599000011181752320000000000000000000000000000000000111856844800000000000000000000000000000000001116733440000000000000000000000000000000000011204034560000000000000000000000000000000000)))
 (.node 2 (.node 1 (.leaf 11204034560000000000000000000010571617900000110913126400000000000000000000103538676600001120403456000000000000000000000000000000000011204034560000000000000000000010766759510000112040345600000000000000000000000000000000001117519872000000000000000000000000000000000011204034560000000000000000000000000000000000111817523200000000000000000000105570220600001116078080000000000000000000000000000000000011189616640000000000000000000000000000000000111817523200000000000000000000000000000000001120403456000000000000000000000000000000000011204034560000000000000000000010475716220000112040345600000000000000000000107024978900001120403456000000000000000000001060898767000011204034561074390683000000000000000000000000)
 (.leaf 11204034560000000000000000000010408505940000111817523200000000000000000000000000000000001120403456000000000000000000000000000000000011156848640000000000000000000000000000000000110677196800000000000000000000000000000000001120403456000000000000000000001066713307000011204034560000000000000000000010496606470000112040345600000000000000000000000000000000001120403456000000000000000000000000000000000011204034560000000000000000000010754962460000112040345600000000000000000000000000000000001120403456000000000000000000000000000000000011204034560000000000000000000000000000000000112040345600000000000000000000000000000000001120403456000000000000000000000000000000000011204034560000000000000000000000000000000000))
 (.node 1 (.leaf 11204034561059797793000000000010682787870000112040345600000000000000000000000000000000001118568448000000000000000000001056101877000011204034560000000000000000000000000000000000112040345600000000000000000000105689488900001120403456000000000000000000000000000000000011204034560000000000000000000010373353140000112040345600000000000000000000000000000000001120403456000000000000000000001047126224000011204034560000000000000000000000000000000000112001024000000000000000000000000000000000001120403456000000000000000000000000000000000011204034560000000000000000000000000000000000112040345600000000000000000000000000000000001120403456000000000000000000000000000000000011204034560000000000000000000000000000000000)
 (.leaf 11189616640000000000000000000010570453060000112040345600000000000000000000000000000000001120403456000000000000000000000000000000000011204034560000000000000000000000000000000000112040345600000000000000000000000000000000001120403456000000000000000000001055939032000011204034560000000000000000000010703001300000112040345600000000000000000000104508058100001120403456000000000000000000000000000000000011204034560000000000000000000000000000000000112040345600000000000000000000000000000000001120403456000000000000000000000000000000000011204034560000000000000000000000000000000000112040345600000000000000000000000000000000001120403456000000000000000000000000000000000011204034560000000000000000000000000000000000))))))))
 (.node 64 (.node 32 (.node 16 (.node 8 (.node 4 (.node 2 (.node 1 (.leaf 11196170240000000000000000000000000000000000112040345600000000000000000000108508381900001120403456000000000000000000001074942254000011200102400000000000000000000010711510480000112040345600000000000000000000106583173700001120403456000000000000000000001063815446000010779361280000000000000000000000000000000000109943193600000000000000000000104623601400001099431936000000000000000000001071532988000011067719680000000000000000000010750941960000110834483200000000000000000000106735024700001120403456000000000000000000001046493777000011204034560000000000000000000000000000000000112040345600000000000000000000000000000000001120403456000000000000000000000000000000000011204034560000000000000000000000000000000000)
 (.leaf 11204034560000000000000000000000000000000000112040345600000000000000000000000000000000001120403456000000000000000000000000000000000011204034560000000000000000000000000000000000112040345600000000000000000000104828955600001120403456000000000000000000000000000000000011204034560000000000000000000000000000000000112040345600000000000000000000000000000000001120403456000000000000000000000000000000000011163402240000000000000000000010235561090000109681049600000000000000000000000000000000001120403456000000000000000000001042936732000011204034560000000000000000000000000000000000112040345600000000000000000000106784879500001120010240000000000000000000000000000000000011185684480000000000000000000010597241160000))
 (.node 1 (.leaf 11204034560000000000000000000000000000000000112040345600000000000000000000000000000000001117519872000000000000000000001091352839000011193548800000000000000000000010741441620000112040345600000000000000000000106714333400001120403456000000000000000000000000000000000011204034560000000000000000000000000000000000112040345600000000000000000000000000000000001120403456000000000000000000000000000000000011204034560000000000000000000000000000000000112040345600000000000000000000000000000000001120403456000000000000000000000000000000000011204034560000000000000000000000000000000000112040345600000000000000000000000000000000001120403456000000000000000000000000000000000011204034560000000000000000000010692534930000)
 (.leaf 11204034560000000000000000000000000000000000112040345600000000000000000000000000000000001120403456000000000000000000000000000000000011204034560000000000000000000000000000000000111489843200000000000000000000105014374400001116078080000000000000000000000000000000000011163402240000000000000000000010369423280000110991769600000000000000000000107412797500001111228416000000000000000000000000000000000011204034560000000000000000000010665661820000112040345600000000000000000000107057427200001120403456000000000000000000000000000000000011204034560000000000000000000000000000000000112040345600000000000000000000000000000000001120403456000000000000000000000000000000000011204034560000000000000000000000000000000000)))
 (.node 2 (.node 1 (.leaf 11204034560000000000000000000000000000000000112040345600000000000000000000000000000000001120403456000000000000000000000000000000000011204034560000000000000000000000000000000000112040345600000000000000000000000000000000001120403456000000000000000000000000000000000011204034560000000000000000000000000000000000112040345600000000000000000000000000000000001120403456000000000000000000000000000000000011204034560000000000000000000000000000000000112040345600000000000000000000000000000000001120403456000000000000000000000000000000000011204034560000000000000000000000000000000000112040345600000000000000000000000000000000001120403456000000000000000000000000000000000011204034560000000000000000000000000000000000)
 (.leaf 11204034560000000000000000000000000000000000112040345600000000000000000000000000000000001112014848000000000000000000000000000000000011128012800000000000000000000000000000000000112001024000000000000000000000106009226000001119617024000000000000000000000000000000000010905190400000000000000000000000000000000000111961702400000000000000000000000000000000001120403456000000000000000000000000000000000010968104960000000000000000000000000000000000110362624000000000000000000000000000000000001116078080000000000000000000001069516655000011185684480000000000000000000000000000000000112040345600000000000000000000000000000000001116078080000000000000000000001065895397000011204034560000000000000000000000000000000000))
 (.node 1 (.leaf 11204034560000000000000000000000000000000000112040345600000000000000000000000000000000001120403456000000000000000000000000000000000011204034560000000000000000000000000000000000112040345600000000000000000000000000000000001120403456000000000000000000000000000000000011204034560000000000000000000000000000000000110519910400000000000000000000000000000000001099431936000000000000000000000000000000000011075584000000000000000000000010473551850000112040345600000000000000000000000000000000001117913088000000000000000000000000000000000011204034560000000000000000000000000000000000111634022400000000000000000000103258561200001118175232000000000000000000001068088485000011204034560000000000000000000010752030770000)
 (.leaf 11204034560000000000000000000000000000000000112040345600000000000000000000000000000000001120403456000000000000000000000000000000000011204034560000000000000000000000000000000000112040345600000000000000000000000000000000001120403456000000000000000000000000000000000011204034560000000000000000000000000000000000112040345600000000000000000000000000000000001120403456000000000000000000000000000000000011204034560000000000000000000000000000000000112040345600000000000000000000000000000000001120403456000000000000000000000000000000000011204034561080786015000000000010770876533768112001024000000000000000000000000000000000001120403456000000000000000000001032874616000011189616640000000000000000000010444768790000))))
 (.node 4 (.node 2 (.node 1 (.leaf 11120148480000000000000000000010676781460000112040345600000000000000000000000000000000001119617024000000000000000000000000000000000011181752320000000000000000000010740280560000111751987200000000000000000000107962298800001120403456000000000000000000000000000000000011204034560000000000000000000010740583290000112040345600000000000000000000000000000000001120403456000000000000000000000000000000000011204034560000000000000000000000000000000000112040345600000000000000000000000000000000001120403456000000000000000000000000000000000011204034560000000000000000000000000000000000112040345600000000000000000000000000000000001120403456000000000000000000000000000000000011204034560000000000000000000000000000000000)
 (.leaf 11204034560000000000000000000000000000000000112040345600000000000000000000000000000000001120403456000000000000000000000000000000000011204034560000000000000000000000000000000000112040345600000000000000000000000000000000001120403456000000000000000000000000000000000011204034560000000000000000000000000000000000112040345600000000000000000000000000000000001120403456000000000000000000000000000000000011204034560000000000000000000000000000000000112040345600000000000000000000000000000000001120403456000000000000000000000000000000000011204034560000000000000000000000000000000000112040345600000000000000000000000000000000001120403456000000000000000000000000000000000011204034560000000000000000000000000000000000))
 (.node 1 (.leaf 11204034560000000000000000000000000000000000111961702400000000000000000000000000000000001108344832000000000000000000000000000000000011204034560000000000000000000010525808060000111751987200000000000000000000106648749200001106771968000000000000000000001059252395000011179130880000000000000000000010693661370000111751987200000000000000000000000000000000001114898432000000000000000000001065065845000011181752320000000000000000000010852532730000109051904000000000000000000000000000000000001106771968000000000000000000001072483646000010994319360000000000000000000000000000000000108632473600000000000000000000104103213600001116340224000000000000000000000000000000000011135877120000000000000000000000000000000000)
 (.leaf 11204034560000000000000000000000000000000000112040345600000000000000000000000000000000001120403456000000000000000000000000000000000011204034560000000000000000000000000000000000112040345600000000000000000000000000000000001120403456000000000000000000000000000000000011204034560000000000000000000000000000000000112040345600000000000000000000000000000000001120403456000000000000000000000000000000000011204034560000000000000000000000000000000000109681049600000000000000000000000000000000001120403456000000000000000000001056194822000011204034560000000000000000000000000000000000112040345600000000000000000000000000000000001120403456000000000000000000000000000000000011204034560000000000000000000000000000000000)))
 (.node 2 (.node 1 (.leaf 11099176960000000000000000000000000000000000110205337600000000000000000000105749704700001120403456000000000000000000000999936787000011204034560000000000000000000000000000000000112040345600000000000000000000106109363300001117126656000000000000000000001054649873000011200102400000000000109170330210806853640000109943193600000000001082556364106980754400001119617024000000000000000000001076566242000011181752320000000000000000000010824753080000110913126400000000000000000000106608443600001116078080000000000000000000000000000000000011083448320000000000000000000000000000000000112040345600000000000000000000000000000000001120403456000000000000000000000000000000000011204034560000000000000000000000000000000000)
 (.leaf 11204034560000000000000000000000000000000000112040345600000000000000000000000000000000001120403456000000000000000000000000000000000011204034560000000000000000000000000000000000112040345600000000000000000000000000000000001120403456000000000000000000000000000000000011204034560000000000000000000000000000000000112040345600000000000000000000000000000000001120403456000000000000000000000000000000000011204034560000000000000000000000000000000000112040345600000000000000000000000000000000001120403456000000000000000000001068265494000011204034560000000000000000000010584111350000112040345600000000000000000000108456412900001105199104000000000000000000000000000000000010994319360000000000000000000000000000000000))
 (.node 1 (.leaf 11189616640000000000000000000000000000000000112001024000000000000000000000106429212300001120403456000000000000000000000000000000000011204034560000000000000000000010601626150000112040345600000000000000000000103804197200001120403456000000000000000000001044728419000011204034560000000000000000000000000000000000112040345600000000000000000000000000000000001120403456000000000000000000000000000000000011193548800000000000000000000000000000000000110755840000000000001030027110101055614900001116078080000000000010393686641073285536000011175198720000000000000000000010486871000000111961702400000000000000000000104890444700001120403456000000000000000000001076076524000011189616640000000000000000000010469271330000)
 (.leaf 11067719680000000000000000000010667043900000112040345600000000000000000000000000000000001120403456000000000000000000001060784401000011204034560000000000000000000010626430300000112040345600000000000000000000105982791600001120403456000000000000000000001062643868000011181752320000000000000000000010446352130000112040345600000000000000000000000000000000001120403456000000000000000000000000000000000011204034560000000000000000000000000000000000112040345600000000000000000000000000000000001120403456000000000000000000000000000000000011204034560000000000000000000000000000000000112040345600000000000000000000000000000000001120403456000000000000000000000000000000000011204034560000000000000000000000000000000000)))))
 (.node 8 (.node 4 (.node 2 (.node 1 (.leaf 11204034560000000000000000000000000000000000112040345600000000000000000000104556595000001117913088000000000000000000000000000000000011189616640000000000000000000000000000000000111044198400000000000000000000000000000000001116078080000000000000000000000000000000000011204034560000000000000000000000000000000000112040345600000000000000000000000000000000001120403456000000000000000000000000000000000011204034560000000000000000000010497972180000112040345600000000000000000000000000000000001120403456000000000000000000000000000000000011204034560000000000000000000010742890100000112040345600000000000000000000000000000000001120403456000000000000000000000000000000000011171266560000000000000000000010706786150000)
 (.leaf 11204034560000000000000000000000000000000000110677196800000000000000000000104748990400001090519040000000000000000000000917326018000010994319360000000000000000000010486349470000109681049600000000000000000000000000000000001115684864000000000000000000001057117369000011175198720000000000000000000010342610250000111751987200000000000000000000103651779200001120403456000000000000000000000000000000000011204034560000000000000000000000000000000000112040345600000000000000000000000000000000001120403456000000000000000000000000000000000011204034560000000000000000000000000000000000112040345600000000000000000000000000000000001120403456000000000000000000000000000000000011204034560000000000000000000000000000000000))
 (.node 1 (.leaf 11204034560000000000000000000000000000000000112040345600000000000000000000000000000000001120403456000000000000000000000000000000000011204034560000000000000000000000000000000000112001024000000000000000000000000000000000001120403456000000000000000000000000000000000011185684480000000000000000000000000000000000111122841600000000000000000000000000000000001119354880000000000000000000000000000000000011204034560000000000000000000010494554190000112040345600000000000000000000000000000000001120403456000000000000000000001041253313000011204034560000000000000000000010676787393769112040345600000000000000000000107192478600001120403456000000000000000000001047092609000011167334400000000000000000000000000000000000)
 (.leaf 11051991040000000000104740830600000000000000109943193600000000000000000000000000000000001090519040000000000000000000000000000000000011204034560000000000000000000010371256730000111201484800000000000000000000105087301800001120403456000000000000000000000000000000000011204034560000000000000000000000000000000000112040345600000000000000000000000000000000001120403456000000000000000000000000000000000011204034560000000000000000000000000000000000112040345600000000000000000000000000000000001120403456000000000000000000000000000000000011204034560000000000000000000000000000000000112040345600000000000000000000000000000000001120403456000000000000000000001050725392000011171266560000000000000000000010330120870000)))
 (.node 2 (.node 1 (.leaf 11204034560000000000000000000010156491220000111751987200000000000000000000107600695100001120403456000000000000000000001052114487000011204034560000000000000000000000000000000000112040345600000000000000000000105372739300001120403456000000000000000000000000000000000011204034560000000000000000000000000000000000112040345600000000000000000000106067423237701120403456000000000000000000001090563275000011204034560000000000000000000010791117423771112040345600000000001099166804000000000000001120403456000000000000000000001067824428000011204034560000000000000000000000000000000000112040345600000000000000000000000000000000001120403456000000000000000000001019535113000011160780800000000000000000000000000000000000)
 (.leaf 11112284160000000000000000000010216910000000111201484800000000000000000000105863270400001112014848000000000000000000001061601491000011204034560000000000000000000000000000000000112040345600000000000000000000000000000000001120403456000000000000000000000000000000000011204034560000000000000000000000000000000000112040345600000000000000000000000000000000001120403456000000000000000000000000000000000011204034560000000000000000000000000000000000112040345600000000000000000000000000000000001120403456000000000000000000000000000000000011204034560000000000000000000000000000000000112040345600000000000000000000000000000000001120403456000000000000000000000000000000000011204034560000000000000000000000000000000000))
 (.node 1 (.leaf 11204034560000000000000000000000000000000000112040345600000000000000000000000000000000001120403456000000000000000000000000000000000011204034560000000000000000000000000000000000112040345600000000000000000000104808635300001120403456000000000000000000001053249634000011185684480000000000000000000000000000000000110519910400000000000000000000000000000000001120403456000000000000000000001046843152000011204034560000000000000000000000000000000000112040345600000000000000000000106996516700001120403456000000000000000000001064648695000011204034560000000000000000000010748568350000112040345600000000000000000000107395438937721117519872000000000000000000001077399426000011120148480000000000103590584610780371920000)
 (.leaf 10936647680000000000000000000010596739970000112040345600000000001101777758104696812600001120403456000000000000000000001058756826000011204034560000000000000000000010826288180000111607808000000000000000000000106339248600001112014848000000000000000000001063416105000011099176960000000000102957077010659979620000110913126400000000001051371084106639631600001112014848000000000000000000001081560660000011204034560000000000000000000010839156590000112001024000000000000000000000108409519600001120403456000000000000000000001062234218000011200102400000000000000000000000000000000000111607808000000000000000000000000000000000001118175232000000000000000000001084368338000011091312640000000000000000000000000000000000))))
 (.node 4 (.node 2 (.node 1 (.leaf 11204034560000000000000000000000000000000000112001024000000000000000000000000000000000001120403456000000000000000000001078866367000011204034560000000000000000000000000000000000112040345600000000000000000000000000000000001120403456000000000000000000000000000000000011204034560000000000000000000000000000000000112040345600000000000000000000000000000000001120403456000000000000000000001055989294000011185684480000000000000000000010343257110000112040345600000000000000000000000000000000001120403456000000000000000000000000000000000011204034560000000000000000000010634370180000112040345600000000000000000000106603321400001120403456000000000000000000001082188055000011204034560000000000000000000010897954613773)
 (.leaf 11204034560000000000000000000010798569660000112040345610664340210000000000107158741600001120403456000000000000000000001050976988000011204034561108596395105385746810744063160000112040345600000000000000000000106446096600001118568448109103300410741511881096334197000011200102401105240404106485996610651881440000111817523210957711871054890944107790205400001120403456000000000011083107271059625848000011204034560000000000111367975110745272480000112040345600000000000000000000108672096100001110441984000000000000000000001066727471000011128012800000000000000000000010592634690000109051904000000000000000000000108247627000001116340224000000000011036880541092966462000011171266560000000000000000000010912082750000))
 (.node 1 (.leaf 11204034560000000000000000000010579746493774111489843200000000000000000000105784869300001119354880000000000000000000001063660951377511120148480000000000000000000010502307890000111817523200000000000000000000106554888500001120403456000000000000000000000000000000000011181752320000000000000000000010596422880000112001024000000000000000000000106697858400001120403456000000000000000000000000000000000011075584000000000000000000000010167136680000110362624000000000000000000000107050585500001120403456000000000000000000000000000000000011204034560000000000000000000000000000000000112040345600000000000000000000000000000000001120403456000000000000000000000000000000000011204034560000000000000000000000000000000000)
 (.leaf 11204034560000000000000000000000000000000000112040345600000000000000000000000000000000001120403456000000000010614189591032456256000011204034560000000000000000000010513965910000111607808000000000000000000000103337673000001120403456000000000000000000000000000000000011204034560000000000000000000000000000000000112040345600000000000000000000109092422600001120403456106427940700000000001048858988000011204034560000000000000000000010529057880000112040345600000000000000000000000000000000001120403456000000000000000000001065040064000011204034560000000000000000000010702154180000112040345610657837360000000000107222625100001120403456106970749910729969161077700533000011204034560000000000000000000010669572110000)))
 (.node 2 (.node 1 (.leaf 11204034560000000000000000000010803801670000112040345611066166351060455947107632716700001102053376000000000010441736591031938604000011204034560000000000111492066210717894100000112040345600000000000000000000108480078300001096810496000000000000000000001075371324000011204034560000000000000000000010907564410000112040345600000000000000000000108204032500001114112000000000000000000000001085266787000011099176960000000000110337568310778720320000112040345600000000000000000000108407266200001119354880000000000000000000001075789620000010936647680000000000000000000010675503810000111122841600000000000000000000105654612000001120403456000000000000000000000000000000000011067719680000000000000000000010460412650000)
 (.leaf 11204034560000000000000000000010780469020000112040345600000000000000000000106388047700001118175232000000000000000000001079124908000011160780800000000000000000000010659692310000112040345600000000000000000000108168499000001120403456000000000000000000000000000000000011204034560000000000000000000000000000000000112040345600000000000000000000000000000000001120403456000000000000000000000000000000000011204034560000000000000000000000000000000000112040345600000000000000000000000000000000001120403456000000000000000000000000000000000011204034560000000000000000000000000000000000112040345600000000000000000000000000000000001120403456000000000000000000000000000000000011204034560000000000000000000000000000000000))
 (.node 1 (.leaf 11204034560000000000000000000000000000000000112040345600000000000000000000000000000000001120403456000000000000000000000000000000000011204034560000000000000000000000000000000000112040345600000000000000000000104906429900001120403456000000000010521931681040373404000011204034560000000000000000000000000000000000112040345600000000000000000000000000000000001120403456000000000000000000001070888291000011204034560000000000000000000010493186520000112040345600000000000000000000000000000000001120403456000000000000000000001074282163000011204034560000000000000000000010772493260000112040345600000000000000000000108056031200001120403456106744395900000000001059441571000011204034561069874642000000000010422454090000)
 (.leaf 11204034560000000000000000000010746342470000112040345600000000000000000000108736123300001120403456000000000000000000001085264156377611204034560000000000000000000010694878400000112040345610703731940985104436107335173400001120403456000000000000000000001062087211000011204034560000000000000000000010489505980000112040345600000000000000000000103404018500001120403456106646489100000000000000000000000011204034560000000000000000000010510437080000112040345600000000000000000000106753275900001120403456000000000000000000001044271458000011204034560000000000104902898500000000000000112040345610892488241045106472107409208500001120403456000000000010511731131074475004377711204034560000000000000000000010550434700000))))))
 (.node 16 (.node 8 (.node 4 (.node 2 (.node 1 (.leaf 11181752320000000000000000000010800628380000112040345600000000000000000000107560648200001120403456000000000000000000001090881115000011204034560000000000000000000010781211380000112040345600000000000000000000107146964300001120403456000000000000000000001082964352000011204034560000000000000000000010974935100000111201484800000000001104475272107528889900001120403456000000000000000000001082648680000011185684480000000000000000000010826582700000112040345600000000000000000000000000000000001118175232000000000000000000001052536992000011204034560000000000000000000000000000000000112040345600000000000000000000108377721800001120403456000000000000000000001085830240000011204034560000000000000000000010722985230000)
 (.leaf 11204034560000000000000000000000000000000000112040345600000000000000000000000000000000001120403456000000000000000000000000000000000011204034560000000000000000000000000000000000112040345600000000000000000000000000000000001120403456000000000000000000000000000000000011204034560000000000000000000000000000000000112040345600000000000000000000000000000000001120403456000000000000000000000000000000000011204034560000000000000000000000000000000000112040345600000000000000000000000000000000001120403456000000000000000000000000000000000011189616640000000000104876726010663764410000112040345600000000000000000000000000000000001120403456000000000000000000001036855652000011204034560000000000000000000000000000000000))
 (.node 1 (.leaf 11156848640000000000000000000010650488710000112040345600000000000000000000107405412400001120403456000000000000000000001066665961000011204034560000000000000000000010622471460000112040345600000000000000000000105568655500001120403456000000000000000000001063556846000011204034561073927619103598637710740285600000112040345600000000000000000000000000000000001120403456000000000000000000000000000000000011204034560000000000000000000010480737960000112040345610671094800000000000104029037200001120403456000000000000000000001076395738000011204034560000000000000000000000000000000000112040345610589896681045046074103216883300001120010240000000000010478713571063548983000011204034560000000000000000000010772044850000)
 (.leaf 11204034560000000000103183904910738463130000112040345600000000000000000000107549026900001120403456000000000000000000001066447994000011171266561071392796107964866210916463990000112040345600000000000000000000108744906700001120403456000000000000000000001086505466000011204034560000000000000000000010953031920000112040345600000000000000000000110079585237781120403456000000000000000000001100051532000011167334400000000000000000000010403912210000112040345600000000000000000000108272643500001118961664000000000000000000001084684979000011204034560000000000000000000000000000000000112040345600000000000000000000106481708300001120403456000000000000000000001077618178000011204034560000000000000000000000000000000000)))
 (.node 2 (.node 1 (.leaf 11204034560000000000000000000000000000000000112040345600000000000000000000000000000000001120403456000000000000000000000000000000000011204034560000000000000000000000000000000000112040345600000000000000000000000000000000001120403456000000000000000000000000000000000011204034560000000000000000000000000000000000112040345600000000000000000000000000000000001120403456000000000000000000001053374743000011204034560000000000000000000000000000000000112040345600000000000000000000102684135800001106771968000000000000000000001064714099000011193548800000000000000000000010573990780000112001024000000000000000000000000000000000001120403456000000000000000000001074331637000011204034560000000000000000000010511241720000)
 (.leaf 11204034560000000000000000000010498540910000110913126400000000000000000000000000000000001120403456000000000000000000001048075728000011204034560000000000000000000010950221420000112040345600000000000000000000106413758300001120403456000000000000000000001057930574000011204034560000000000000000000010671013650000112040345600000000000000000000105373603300001120403456000000000000000000001054502744000011204034560000000000000000000000000000000000112040345600000000000000000000000000000000001120403456000000000000000000000000000000000011204034560000000000000000000000000000000000112040345600000000000000000000000000000000001120403456000000000000000000001047749499000011204034560000000000000000000010401567720000))
 (.node 1 (.leaf 11204034560000000000103324833510656959830000112040345600000000000000000000105061136800001119354880000000000010443884071046881221000011185684480000000000000000000010698712040000112040345600000000001051810647107601440600001117913088108482809510845528521093749497000011128012801058038635108076183110997111370000112040345600000000000000000000108863739000001120403456105014654910730254371104689984000011204034561083066227108689662910875889790000111673344000000000001110282496109270087600001118175232000000000011064515761094102318377911204034560000000000000000000010925152720000112040345600000000000000000000109319892600001120403456000000000000000000001095500899000010968104960000000000000000000010667146040000)
 (.leaf 11204034560000000000000000000000000000000000112040345600000000000000000000106116660100001120403456000000000000000000001080353067000011204034560000000000000000000010614218210000112040345600000000000000000000000000000000001120403456000000000000000000001080320620000011204034560000000000000000000010698434640000112040345600000000000000000000107860745900001120403456000000000000000000001075987780378011204034560000000000000000000000000000000000112040345600000000000000000000000000000000001120403456000000000000000000001053362479000011204034560000000000000000000000000000000000112040345600000000000000000000106399600500001120403456000000000000000000001062033465000011204034560000000000000000000000000000000000))))
 (.node 4 (.node 2 (.node 1 (.leaf 11128012801110293198105845945810758051060000112040345600000000000000000000106683504000001120403456000000000000000000001083628264000011204034560000000000000000000010602185460000112040345610612414390000000000106764773200001120403456000000000000000000000000000000000011204034560000000000000000000010403220670000112040345600000000000000000000107493429800001120403456000000000000000000000000000000000011204034560000000000000000000000000000000000112040345600000000000000000000000000000000001120403456000000000000000000000000000000000011204034560000000000000000000000000000000000112040345600000000000000000000104983625100001120403456000000000010297586750000000000000011204034560000000000000000000000000000000000)
 (.leaf 11204034561090595486107119923700000000000000112040345600000000001054713106000000000000001117519872000000000010444823591035196162000011204034560000000000000000000010751707470000112040345600000000000000000000108449067800001120403456000000000010597395601083036292000011160780801044862195106622059810905742753781112040345600000000001116651572108277743100001120403456000000000011153064331097481593000011204034560000000000111584143010941017380000110677196800000000000000000000107657122700001120403456000000000000000000001086588371000011204034560000000000000000000010945000543782112040345600000000000000000000108528127437831120403456000000000000000000001089408674378411204034560000000000000000000010918800330000))
 (.node 1 (.leaf 11200102400000000000000000000010700315270000112040345600000000000000000000106741850100001105199104000000000000000000001080125107000011091312640000000000000000000010664652900000111568486400000000000000000000105940475500001119354880000000000000000000001090644368000011181752320000000000000000000010859286543785112040345600000000000000000000000000000037861120403456000000000000000000001087963092000011204034560000000000000000000010684110543787112040345600000000000000000000000000000000001120403456000000000000000000000000000000000011204034560000000000000000000000000000000000112040345600000000000000000000000000000000001120403456000000000000000000000000000000000011204034560000000000000000000000000000000000)
 (.leaf 11204034560000000000000000000000000000000000112040345600000000000000000000000000000000001120403456000000000010242020611067242544000011196170240000000000000000000010776564700000112040345600000000000000000000106143985000001120403456107044696310202694811056866211378811171266560000000000000000000000000000000000112040345600000000000000000000106033659900001120403456000000000000000000001058466095000011204034560000000000000000000010525167880000112040345600000000000000000000107536772900001120403456000000000000000000000000000000000011204034560000000000000000000000000000000000112040345600000000000000000000000000000000001120403456000000000000000000000000000000000011204034560000000000000000000000000000000000)))
 (.node 2 (.node 1 (.leaf 11204034560000000000000000000000000000000000112040345600000000000000000000103650377000001120403456000000000000000000000000000000000011204034561066747797000000000010473053830000112040345600000000001041898668000000000000001120403456000000000010602898520000000000000011204034560000000000000000000000000000000000112040345600000000000000000000000000000000001120403456000000000000000000001056704421000011204034560000000000000000000010742110510000112040345600000000000000000000000000000000001120403456000000000000000000001045564001000011204034560000000000102492683610790471520000112040345600000000000000000000108706026100001120403456000000000010992915841075395045000011204034561057057906109224594010827293970000)
 (.leaf 11204034560000000000111706893210117593980000112040345600000000001116729403107889291900001120403456000000000011162404781089827966000011204034560000000000111705883910425700820000111935488000000000001116615383000000000000001120403456000000000011170753540000000000000011204034560000000000111695001010336551670000111961702400000000001115988204103024207900001120403456000000000010981914711062793010000010936647680000000000000000000000000000000000112040345600000000000000000000108765463000001120403456000000000000000000001096344890378911204034560000000000000000000010936271303790112040345600000000000000000000108741631837911096810496000000000000000000001074761693000011204034560000000000000000000010920451043792))
 (.node 1 (.leaf 11171266560000000000000000000010804052340000112040345600000000000000000000107525098200001120403456000000000000000000001088987982000011204034560000000000000000000010801806740000112040345600000000000000000000104010276300001120403456000000000000000000000000000000000011204034560000000000000000000000000000000000112040345600000000000000000000000000000000001120403456000000000000000000000000000000000011204034560000000000000000000000000000000000112040345600000000000000000000000000000000001120403456000000000000000000000000000000000011204034560000000000000000000000000000000000112040345600000000000000000000000000000000001120403456000000000000000000000000000000000011204034560000000000000000000000000000000000)
 (.leaf 11204034560000000000000000000000000000000000111817523200000000000000000000102679923000001120403456000000000010297855181081935536000011204034560000000000000000000010909475520000111280128000000000000000000000107504674900001112014848000000000000000000001048529815000011156848640000000000000000000010585606110000111201484800000000000000000000104129371300001119617024000000000010728475981072505318000011204034560000000000000000000010654925380000112040345610892914571049428283109234224937931120403456000000000011057704731080978108000011160780800000000000000000000010428676780000112040345600000000000000000000106847005900001120403456000000000000000000001065613487000011204034560000000000000000000000000000000000)))))
 (.node 8 (.node 4 (.node 2 (.node 1 (.leaf 11204034560000000000000000000010543035480000112040345600000000000000000000000000000000001120403456000000000000000000001072422122379411204034560000000000000000000010690103170000112040345600000000000000000000103832584300001120403456000000000000000000001024632303000011204034560000000000000000000000000000000000112040345600000000000000000000000000000000001120403456101689954200000000000000000000000011204034560000000000000000000000000000000000112040345600000000000000000000000000000000001120403456000000000000000000000000000000000011204034560000000000000000000000000000000000112040345600000000000000000000000000000000001120403456000000000010461332370000000000000011204034560000000000103348992700000000000000)
 (.leaf 11204034560000000000000000000000000000000000112040345610678917770000000000104415270100001120403456000000000010250342110000000000000011204034560000000000106680025110565834780000112040345600000000001091031165000000000000001120403456000000000000000000000000000000000011204034560000000000104850218000000000000000112040345600000000001058657429106996844300001120403456108809706610840820421092845273000010936647680000000000105296156400000000000000110755840000000000000000000000000000000000001117126656000000000010502436551044261569000011204034560000000000111687747510721660610000112040345600000000001117076115000000000000001120403456000000000011170761150000000000000011204034560000000000111707611500000000000000))
 (.node 1 (.leaf 11204034560000000000111706767410327274450000112040345600000000001117076115000000000000001120403456000000000011170179061057551871000011204034560000000000111707611500000000000000112040345600000000001117067202103401169700001120403456000000000010937899680000000000000011204034560000000000109314058500000000000000112040345600000000001102616776108597150500001117126656000000000000000000001081576181000011204034560000000000000000000010408437500000111358771200000000000000000000000000000000001108344832000000000000000000000000000000000010936647680000000000000000000010375650870000112040345600000000000000000000109489015500001120403456000000000000000000001097192406379511204034560000000000000000000010961597000000)
 (.leaf 11189616640000000000000000000010921834233796112001024000000000000000000000109763525800001120403456000000000000000000001091420347379711200102400000000000000000000010853459280000111961702400000000000000000000107244135100001120403456000000000000000000001067359756000011204034560000000000000000000010673512500000112040345600000000000000000000106906189800001120403456000000000000000000000000000000000011204034560000000000000000000000000000000000112040345600000000000000000000000000000000001120403456000000000000000000001055419793000011200102400000000000105691092110612496310000112040345600000000000000000000105824646100001120403456000000000000000000001080634197000011204034560000000000000000000010399210470000)))
 (.node 2 (.node 1 (.leaf 11204034560000000000000000000010787894770000111935488000000000000000000000108209229200001112014848000000000000000000001075057570000011204034560000000000000000000010294896380000112040345600000000001096473064105345079700001120403456000000000000000000001067578234000011204034560000000000000000000010759891060000111607808000000000000000000000105959409100001117126656000000000000000000001049042420000011193548800000000000000000000010593254260000112040345600000000000000000000105378862800001120403456000000000000000000001062757594000011204034560000000000000000000010437391170000112040345600000000000000000000106830024300001120403456000000000000000000001022882528379811204034560000000000000000000000000000000000)
 (.leaf 11204034560000000000000000000000000000000000112040345600000000000000000000105937059700001120403456000000000000000000001050394624000011204034560000000000000000000000000000000000112040345600000000000000000000000000000000001120403456000000000000000000000000000000000011204034560000000000104065715400000000000000112040345600000000000000000000000000000000001120403456000000000000000000001033161911000011204034560000000000000000000000000000000000112040345600000000000000000000105089309500001120403456000000000010787686971051606916000011204034560000000000000000000000000000000000112040345600000000001104185026000000000000001120403456000000000000000000000000000000000011204034560000000000000000000000000000000000))
 (.node 1 (.leaf 11204034560000000000000000000010497863740000112040345600000000000000000000000000000000001120403456000000000000000000001039899266000011204034560000000000000000000010514561550000112040345600000000000000000000107411016200001120403456000000000010561022591064241417000011204034561075174783110300286210611243860000112040345610656239501103300080109264407300001120403456102506561710798743161099162052379911204034560000000000106767350510256013990000112040345600000000001091954855000000000000001120403456000000000010796339821033347165000011171266560000000000104801899610685753330000112040345600000000000000000000000000000000001120403456000000000010781257110000000000000011204034560000000000109940986300000000000000)
 (.leaf 11128012800000000000109957522410574873003800111607808000000000001042321454108053215900001118961664000000000011109265311046724101000011204034560000000000110367374010431461560000112040345600000000001117069784103944433000001120403456000000000011170297681023497395000011204034560000000000111707178910285837220000112040345600000000001086950316104335958500001120403456000000000000000000000000000000000011204034560000000000000000000000000000000000112040345600000000000000000000000000000000001120403456000000000010994341380000000000000011204034560000000000000000000000000000000000112040345600000000001085398424105699979800001117126656000000000011001525701085238143000011204034560000000000110293072010793846813801))))
 (.node 4 (.node 2 (.node 1 (.leaf 11204034560000000000108144550210685885990000112040345600000000000000000000108768735400001120403456000000000000000000001094485646000011204034560000000000000000000010912646510000112040345600000000000000000000108539757038021116733440000000000000000000001040221114000011175198720000000000000000000010716199690000112040345610500887010000000000108622612100001119617024000000000000000000001079681120000011167334400000000000000000000010923471310000111896166400000000000000000000107884827600001120403456000000000000000000001083519134000011204034560000000000000000000010955711680000112040345600000000000000000000107593742100001120010240000000000000000000001077767041000011160780800000000000000000000010764104610000)
 (.leaf 11135877120000000000000000000010629922110000112040345600000000000000000000000000000000001120403456000000000000000000000000000000000011204034560000000000000000000000000000000000112040345600000000000000000000000000000000001120403456000000000000000000000000000000000011200102400000000000102508789810695781190000112040345600000000001041032964106186659938031120403456000000000000000000001066799354000011204034560000000000000000000000000000000000112040345600000000000000000000108367952300001119617024000000000000000000001083779323000011204034560000000000104351599210424574070000112040345600000000000000000000104708589300001120403456000000000010384694051061231031000011075584000000000000098510443610420495190000))
 (.node 1 (.leaf 11128012801065058692109995580510783441440000111673344000000000000000000000105585977600001120403456000000000000000000001034405003000011204034561069977923000000000010527062920000112040345600000000000000000000106474763000001120403456000000000000000000001025334345000011204034560000000000000000000010399618150000112040345600000000000000000000093215849638041120403456000000000000000000000000000000000011204034560000000000000000000010678667070000112040345600000000000000000000106114921200001120403456000000000000000000001071368044000011204034560000000000108736261700000000000000112040345610293715911106639061105526862700001120403456000000000000000000001060470713000011204034560000000000000000000000000000000000)
 (.leaf 11204034561065397768000000000000000000000000112040345600000000000000000000000000000000001120403456000000000010663044841043405408000011204034560000000000109533714210495610130000112040345600000000000000000000000000000000001120403456000000000000000000000000000000000011204034561072425576108420598310847976020000112040345611162489941085699994108564877900001120403456111144096410879431081093871851380511204034561111557767107865419310969791170000112040345610847017941094325371107256333600001120403456000000000010735337870000000000000011204034560000000000107802211100000000000000112040345600000000001078211694102954841500001120403456000000000011073510701041597707000011204034560000000000109942994410407779360000)))
 (.node 2 (.node 1 (.leaf 11204034560000000000110959751310604985650000112040345600000000001103167069106817366400001120403456000000000010965873591055859050000011204034560000000000108460716910570715370000112040345600000000001114754908104929700400001120403456000000000011163088061087150089000011204034560000000000101456522810606508350000112040345600000000001105842038108660769538061120403456000000000000000000001085372718000011204034560000000000000000000010664962050000112040345600000000000000000000106257131700001120403456000000000000000000001060839215000011175198720000000000000000000010818059940000110913126400000000000000000000103150175000001118175232000000000000000000001067927782000011156848640000000000000000000010634758250000)
 (.leaf 11020533760000000000000000000010786057600000112001024000000000000000000000109885364500001119354880000000000000000000001068147620000011204034560000000000000000000010761615930000112040345600000000000000000000000000000000001120403456000000000000000000000000000000000011204034560000000000000000000000000000000000112040345600000000000000000000000000000000001120403456000000000000000000000000000000000011204034560000000000000000000000000000000000112040345600000000000000000000000000000000001120403456000000000000000000000000000000000011204034560000000000000000000000000000000000111280128000000000000000000000106604451500001117913088000000000000000000001092652110000011204034560000000000102991973610692045653807))
 (.node 1 (.leaf 11204034561062056107000000000010481188350000112040345600000000000000000000108097755100001120403456000000000000000000000000000000000011204034560000000000000000000010692883513808112040345600000000000000000000106169445100001120403456000000000000000000001089143543000011204034560000000000000000000010929462603809112040345600000000000000000000108258402000001120403456000000000000000000001084004883000011189616640000000000000000000010910933420000111568486410743871091104077390103504301900001119617024000000000010370064321068191779000011193548800000000000000000000010586959020000112040345600000000000000000000103614890600001118175232000000000000000000001052499038000011204034560000000000000000000010717235000000)
 (.leaf 11204034560000000000103520791410272411050000112040345600000000000000000000105741165900001120403456000000000010824659761065865226000011204034560000000000000000000000000000000000112040345600000000001042764372107629108500001120403456108479140110515287901089360619381011141120000000000000109645198810592728780000111817523200000000000000000000000000000000001120403456000000000000000000001058018708000011051991040000000000000000000010718670130000112040345600000000000000000000105868858200001120403456000000000000000000001059579115000011204034560000000000000000000010658435063811112040345610716175100000000000105199715000001120403456000000000000000000001007069422000011204034561059974407000000000010696274633812)))))))
 (.node 32 (.node 16 (.node 8 (.node 4 (.node 2 (.node 1 (.leaf 11204034560000000000103344966200000000000000112040345600000000000000000000000000000000001120403456000000000000000000001030829870000011204034560000000000107473335700000000000000112040345600000000001094448893000000000000001120403456000000000010658330440000000000000011204034560000000000000000000000000000000000112040345600000000000000000000000000000000001120403456000000000010938962940000000000000011204034560000000000107616109910744932320000112040345610549889571104645194000000000000001120403456111354953510783635281070469091000011204034561082052984108913324211045564953813112040345610978198191091719030110139156400001120403456000000000000000000000000000000000011204034560000000000105974123700000000000000)
 (.leaf 11204034560000000000109139596400000000000000112040345600000000001070687532000000000000001120403456000000000000000000000000000000000011204034561084107665109423938800000000000000112040345610018344081075452261000000000000001120403456000000000011032704060000000000000011204034560000000000109495996900000000000000111044198400000000001096936849107446597000001120403456000000000011144466531033691696000011204034560000000000108542862310456367770000112040345600000000000000000000104032706100001120403456000000000011002473091032578235000011204034560000000000111367319710701490170000112040345600000000001111416006106054434900001120403456000000000010587513820000000000000011204034560000000000000000000000000000000000))
 (.node 1 (.leaf 11204034560000000000109260686010234449650000112040345600000000001107348344108765181500001120403456000000000011045798671089947875381411204034560000000000109904490710826646150000112040345600000000000000000000108114932200001120403456000000000000000000001080783115000011204034560000000000000000000010802920090000111411200000000000000000000000106591252800001108344832000000000000000000001068282208000011075584000000000000000000000010597743760000111568486400000000000000000000108734533100001120403456000000000000000000001091232515000011204034560000000000000000000010854938820000112040345600000000000000000000108291792700001120403456000000000000000000001096101819000011193548800000000000000000000010796818610000)
 (.leaf 11020533760000000000000000000010616744310000111712665600000000000000000000106940558700001120403456000000000000000000001082606882000011204034560000000000000000000010758078513815112040345600000000000000000000106573773500001118175232000000000000000000001048516170000011189616640000000000000000000010784144190000112040345600000000000000000000108563953000001114112000000000000000000000001076647625000010936647680000000000000000000010452440000000111634022400000000000000000000107166184700001120403456000000000000000000001092937998000011204034560000000000000000000010792239000000112040345600000000000000000000106886606100001117519872000000000000000000001070532235000011185684480000000000000000000010738535290000)))
 (.node 2 (.node 1 (.leaf 11204034560000000000000000000000000000000000112040345600000000000000000000000000000000001120403456000000000000000000000000000000000011204034560000000000000000000000000000000000111568486400000000001025061054106311652400001120403456000000000000000000001087724493000011204034561106063176104078466110780226320000112040345600000000000000000000000000000000001120403456000000000000000000000000000000000011204034560000000000000000000010908222880000112040345610696432681037207758107427355538161120403456111399901310574595361053265537381711204034560000000000000000000010658245030000111751987200000000000000000000000000000000001118175232111143541811079059241063417984000011204034560000000000106923378610677034810000)
 (.leaf 11204034561091660709106816088310727009120000112040345600000000000000000000106521195200001120403456000000000000000000001072110439000011204034560000000000000000000010504414890000112040345600000000000000000000106617373000001120403456000000000010534179050000000000000011204034561003597492105629351910662460600000112040345600000000000000000000000000000000001120403456000000000011019617831075745847000011179130880000000000000000000010499708080000111280128000000000000000000000104723131300001120403456000000000000000000001060034786000011204034560000000000000000000010493646510000112040345600000000000000000000104470172400001120403456000000000000000000001064406028000011204034560000000000000000000010732803920000))
 (.node 1 (.leaf 11204034560000000000000000000010751617630000112040345610491074690000000000105901074000001120403456000000000000000000001053889210000011204034561057665577000000000010500303460000112040345600000000000000000000000000000000001120403456000000000000000000000000000000000011204034560000000000107121349800000000000000112040345600000000001063747636000000000000001120403456000000000000000000000000000000000011204034560000000000103880494900000000000000112040345610915594421096552861109331443300001120403456111198797410830642940000000000000011204034561110947068108184773600000000000000112040345611085993921100650276108079666000001120403456109948852910980739251092951323000011204034561102120247109383809810986447600000)
 (.leaf 11204034561107433226106934871010798221130000112040345610573789551066975573000000000000001120403456000000000010965761391031441101000011204034560000000000107556886310445706720000112040345600000000001093740265000000000000001120403456107300184810662239541042094096000011204034560000000000109121739210522336480000112040345600000000001045086339000000000000001120403456000000000010385767790000000000000011204034560000000000000000000010560677570000109943193600000000001053260199105172482200001120403456000000000011118428290000000000000011204034560000000000110320161910423268700000112040345600000000001117076403102167114400001120403456000000000011116028891053827227000011204034561052745574110800420200000000000000))))
 (.node 4 (.node 2 (.node 1 (.leaf 11204034561048423864110790555710603282090000112040345600000000000000000000108713781738181120403456000000000000000000001086375243000011204034560000000000000000000010760736950000112040345600000000000000000000107840081238191120403456000000000000000000001088355808000011204034560000000000000000000010846268810000112040345600000000000000000000107548007238201120403456000000000000000000001067200079000011204034560000000000000000000010907639510000112040345600000000000000000000109150993600001120403456000000000000000000001085688094000011204034560000000000000000000010941390600000112040345600000000000000000000109422158300001120403456000000000000000000001093777539382111167334400000000000000000000010920636050000)
 (.leaf 11204034560000000000000000000010657931340000112040345600000000000000000000106739542800001120403456000000000000000000001067415070000011179130880000000000000000000010834825920000112040345600000000000000000000108568970700001120403456000000000000000000001092734962000011204034560000000000000000000010862217700000109943193600000000000000000000000000000000001116733440000000000000000000001055564599000011204034560000000000000000000010813391180000112040345600000000000000000000108228572300001119617024000000000000000000001035162967000011204034560000000000000000000000000000000000112040345600000000000000000000000000000000001120403456000000000010250878981066631411000011204034560000000000000000000010730959230000))
 (.node 1 (.leaf 11204034560000000000000000000000000000000000112040345600000000000000000000108395148938221117913088000000000000000000001070045105382311204034561111935496109368207010614912270000112040345611088405991044978965106582396300001099431936103587537910991568421036675729000011204034560000000000109689228510390812990000112040345600000000001091135288107782062600001120403456107373561610880666301062272799000011204034560000000000000000000010174579680000112040345600000000000000000000107507003900001120403456000000000000000000001042835591000011204034560000000000109179337410573350900000112040345600000000001076124189106350036600001120403456000000000010859011111076555386000011204034560000000000108926221710732770640000)
 (.leaf 11128012800000000000000000000010545865630000112040345600000000000000000000105127574200001120403456000000000010253294901045823928000011204034560000000000000000000010712680990000112040345600000000000000000000105890937800001120403456000000000000000000001069812064000011204034560000000000000000000010250078543824112040345600000000000000000000104204279300001120403456000000000000000000001055720224000011204034561053311134000000000000000000000000112040345600000000001073353431000000000000001120403456000000000000000000000000000000000011204034560000000000000000000000000000000000112040345600000000001043301243000000000000001120403456000000000000000000000000000000000011204034560000000000000000000000000000000000)))
 (.node 2 (.node 1 (.leaf 11204034560000000000000000000000000000000000112040345600000000001077148857000000000000001120403456000000000010298928920000000000000011204034560000000000000000000000000000000000112040345600000000001070269779000000000000001120403456000000000010559915291038895034000011204034560000000000110072477810697587010000112040345610496700761097673893107811974200001120403456109550633310914684211087236854000011204034561074277630108766230010574629970000112040345611191134271035865581000000000000001120403456000000000010745286750000000000000011204034560000000000106347081200000000000000112040345600000000001061818257000000000000001120403456000000000010504953140000000000000011204034560000000000102481946210163416850000)
 (.leaf 11204034560000000000103801306510228181770000112040345600000000001061355205000000000000001120403456000000000010737548261012657236000011204034561024905630107691607300000000003825112040345600000000001103369234000000000000001120403456109802057510535319900000000000000011204034560000000000107172520310627401610000112040345600000000001041945644105050533900001120403456000000000000000000001044866177000011083448320000000000103335571010801689430000112040345600000000001114470298107607003100001120403456000000000011115093031062993284000011204034560000000000111708017800000000000000112040345600000000001050290631103996587900001120403456106282443711079088601058029997000011204034560000000000111623831610831710690000))
 (.node 1 (.leaf 11204034560000000000000000000010878620200000112040345600000000000000000000108402872138261120403456000000000000000000001069222041382711204034560000000000000000000010676222923828112040345600000000000000000000108979342438291120403456000000000000000000001091393683000011141120000000000000000000000010826099190000112001024000000000000000000000109020943400001120403456000000000000000000001082427174000011204034560000000000000000000010913173673830112040345600000000000000000000109763006300001120403456000000000000000000001082918140000011204034560000000000000000000010758078830000112040345600000000000000000000109518806538311120010240000000000000000000001093332735000011204034560000000000000000000010827424920000)
 (.leaf 11204034560000000000000000000010662643720000111961702400000000000000000000106223954400001120403456000000000010981087381084443877000011204034560000000000000000000000000000000000112040345600000000000000000000000000000000001120403456000000000000000000000000000000000011204034560000000000000000000000000000000000112040345600000000000000000000000000000000001120403456000000000000000000000000000000000011204034560000000000000000000000000000000000112040345600000000000000000000000000000000001120403456000000000000000000000000000000000011189616640000000000000000000010609704900000112040345600000000000000000000107081854500001120403456000000000000000000001083812621383211204034561040513407000000000010910376650000)))))
 (.node 8 (.node 4 (.node 2 (.node 1 (.leaf 11204034560000000000000000000010812021150000112040345600000000000000000000107590627738331120403456000000000000000000001075633209000011181752321096823341104191880110734225143834112040345611149118971059632185108914617100001120403456107523013110980986721058500205000011204034560000000000105578349210766566530000111817523200000000000000000000104952600800001118175232109829293111159582801069549531000011196170241110953365111132666110598915480000112040345600000000001091864992103173231100001120403456000000000000000000000000000000000011204034560000000000000000000010301457500000112040345600000000000000000000104076793700001120403456000000000010839893481055027987000011196170240000000000109889160510696033250000)
 (.leaf 11185684480000000000108339648310490630880000112040345600000000000000000000106800553400001120403456000000000009922045541071051490000011204034560000000000109989467310615704290000112040345610683239661111701009108278969500001120403456110926097010786009251075853892000011204034560000000000000000000010523104910000112040345600000000000000000000101740962500001120403456000000000000000000001067750114383511204034560000000000000000000000000000000000112040345600000000000000000000106620141100001120403456000000000010336107231053363175000011204034560000000000000000000000000000000000112040345600000000000000000000000000000000001120403456000000000000000000000000000000000011204034560000000000000000000000000000000000))
 (.node 1 (.leaf 11204034560000000000000000000000000000000000112040345600000000000000000000104972775200001120403456000000000000000000000000000000000011204034560000000000000000000000000000000000112040345600000000000000000000106416613600001120403456000000000010335033490000000000000011204034560000000000107962265800000000000000112040345600000000000000000000000000000000001120403456000000000010767818561039012702000011204034560000000000108473928900000000000000112040345600000000001096212179000000000000001120403456104822428210496665190981629479000011204034560000000000110199712010848984270000112040345600000000000000000000000000000000001120403456000000000011013213130000000000000011204034560000000000105968587200000000000000)
 (.leaf 11204034560000000000104557623400000000000000112040345600000000001081046204000000000000001120403456000000000000000000001032364707000011204034560000000000105312933610427944310000112040345600000000001024953680000000000000001120403456000000000010948450450000000000000011204034560000000000105553854510765986690000112040345600000000001072871925000000000000001120403456000000000000000000000000000000000011167334400000000000000000000010715314340000112040345600000000000000000000000000000000001118961664000000000000000000001064111807000010905190400000000000108180988410822907060000111607808000000000001113756323108289634900001120403456000000000011165111941081798059000010994319360000000000109873421410625413230000)))
 (.node 2 (.node 1 (.leaf 10994319360000000000109349280200000000000000109366476800000000001092884313105996756400001105199104000000000011032736041072436095000011204034560000000000111083132010627785010000112040345600000000001108365672000000000000001120403456104431297711107058321042363504000011204034560000000000110121996810590428950000112040345600000000001101657486000000000000001120403456000000000010998468580000000000000011204034560000000000000000000000000000000000112040345600000000001084511538000000000000001120403456000000000010814509550000000000000011204034561030270849110791884810609551260000112040345600000000001109468591106932363300001120403456000000000010898521461092363372000011204034560000000000000000000010965524520000)
 (.leaf 11204034560000000000000000000010774462493836112040345600000000000000000000108227787238371120403456000000000000000000001085287355000011204034560000000000000000000010945158223838112040345600000000000000000000109110134538391120403456000000000000000000001090074729384011204034560000000000000000000010736840840000112040345600000000000000000000108676139500001120403456000000000000000000001080815344000011204034560000000000000000000010906160370000112040345600000000000000000000107082029100001120403456000000000000000000001079944226384111204034560000000000000000000010960314033842111961702400000000000000000000109080256238431116340224000000000000000000001084672538384411196170240000000000000000000010629979720000))
 (.node 1 (.leaf 11204034560000000000000000000010714094730000111961702400000000000000000000105525749000001120403456000000000000000000000000000000000011204034560000000000000000000000000000000000112040345600000000000000000000000000000000001120403456000000000000000000000000000000000011204034560000000000000000000000000000000000112040345600000000000000000000101890726400001113587712000000000010729440671027827484000011135877120000000000000000000010539844050000112040345600000000001024282591108699246038451120403456000000000000000000001069462759384611204034560000000000000000000010757412923847112040345600000000000000000000108460841338481120403456000000000000000000001089434796384910968104960000000000000000000000000000000000)
 (.leaf 11120148480000000000106819276010684631700000111935488000000000001080081934106893434300001120403456105004239610994929631050383469000011204034560000000000000000000010765312960000112040345600000000001057479669107152225400001120403456000000000000000000000000000000000011204034561089088183110506189800000000000000112040345610720899061107821121102769692800001120403456000000000000000000001043758811000011204034560000000000000000000010449377050000112040345610772392821066021788106941989038501116733440000000000011021865451043181987000011204034560000000000109980612010546415590000112040345600000000001109338934106369029200001120403456000000000010860290381058581236000011204034561062185309111198231610645654320000))))
 (.node 4 (.node 2 (.node 1 (.leaf 11204034561062640994107068501510825978230000112040345610315885990000000000107519649000001120403456000000000000000000001034842772000011204034560000000000000000000000000000000000112040345600000000000000000000000000000000001120403456000000000000000000000000000000000011204034560000000000105560900910345019560000112040345600000000000000000000000000000000001120403456000000000000000000000000000000000011204034560000000000000000000000000000000000112040345600000000000000000000103178698000001120403456000000000010685484371052919865000011204034560000000000104741501710547825570000112040345600000000000000000000000000000000001120403456000000000011075872361070740024000011204034560000000000107439487710847601140000)
 (.leaf 11204034560000000000000000000010889825990000112040345600000000001069250563000000000000001120403456000000000010535990981048815833000011204034560000000000105055235610318862600000112040345600000000000000000000000000000000001120403456000000000010655016940000000000000011204034560000000000106337518210253345970000112040345600000000001084012836104412767900001120403456107490469910786969750000000000000011204034560000000000000000000000000000000000112040345600000000001033516771000000000000001120403456000000000010779529050000000000000011204034560000000000106224775300000000000000112040345600000000001075231641000000000000001120403456000000000010848806370000000000000011204034560000000000108249617500000000000000))
 (.node 1 (.leaf 11204034560000000000000000000000000000000000112040345600000000001089406920000000000000001120403456000000000010334228190000000000000011204034560000000000000000000000000000000000112040345600000000001025383177000000000000001120403456105615034310684444181058828811000011204034560000000000106728846800000000000000112040345600000000001055555322000000000000001100480512000000000010651049131070015906000011204034560000000000000000000010516333480000112040345600000000001057801791105883987600001120403456000000000011109243810000000000000011204034561033876877111125470910521133020000112040345600000000001101833857000000000000001120403456000000000011058653690000000000000011204034561052108644106259504200000000000000)
 (.leaf 11204034560000000000110512769600000000000000112040345600000000001103990410000000000000001120403456000000000010974336650000000000000011204034560000000000000000000000000000000000112040345600000000000000000000106209490700001120403456000000000011054336181058226493000011204034560000000000110794283410632561000000112040345600000000001107522277108491847500001120403456000000000010829170741068887504000011204034560000000000000000000010961751383851112040345600000000000000000000109606612700001120403456000000000000000000001087709496385211204034560000000000000000000010910304473853112040345600000000000000000000108403237938541120403456000000000000000000001086086775000011204034560000000000000000000010859008830000)))
 (.node 2 (.node 1 (.leaf 11204034560000000000000000000010792931530000112040345600000000000000000000108789345900001120403456000000000000000000001086225563000011204034561070719677000000000010701174190000112040345600000000000000000000108340078400001120403456000000000000000000001090440797000010905190400000000000000000000000000000000000112040345600000000000000000000107243368500001120403456000000000000000000001083055562000011204034560000000000000000000010822903760000111817523200000000000000000000108962374000001120010240000000000000000000001058226173000011160780800000000000000000000010675126680000112040345600000000000000000000108374988400001120403456000000000000000000001051136584000011204034560000000000000000000000000000000000)
 (.leaf 11204034560000000000000000000000000000000000112040345600000000000000000000000000000000001116078080000000000010517569601013825914000011020533760000000000104054306900000000000000110048051200000000001025114741099838355900001117519872000000000009784338151072410103000011175198720000000000107127557300000000000000112040345600000000001036603779106043884300001120403456000000000000000000001073777047385511204034560000000000000000000010885581713856112040345600000000000000000000108344454500001116340224000000000000000000001075473253000011083448320000000000000000000010613506360000110834483200000000000000000000105959967300001118961664000000000000000000001047408642000011204034560000000000000000000010579014690000))
 (.node 1 (.leaf 11204034560000000000000000000010898382280000112040345600000000000000000000107435185300001120403456000000000010899450491091516089385711112284161032680997110014585910257643670000112040345610830511591107704624107873371100001120403456000000000011042426981056363296000011204034560000000000107023119200000000000000112040345600000000001063886887105413498400001120403456107000880110875798811089671136000011204034561051557915111156241410692215900000112040345600000000001104794773104402211600001120403456109310878311013783031057566209000011204034561070583027111524139510688610760000112040345611068568961115793313105849155300001120403456000000000011135975161061226863000011204034560000000000108619240600000000000000)
 (.leaf 11204034561111614718106872627510702353880000112040345611180730901063123524106434314700001120403456000000000000000000000000000000000011204034560000000000108035162810321465590000112040345600000000000000000000106966179400001120403456000000000000000000000000000000000011204034560000000000104176445010621588220000112040345600000000000000000000000000000000001120403456000000000010739033050000000000000011204034560000000000000000000010729512350000112040345600000000001061685717104322371000001120403456000000000010643449050000000000000011204034560000000000107445821100000000000000112040345600000000001062360161000000000000001120403456000000000010730094991065591517000011204034560000000000108413510000000000000000))))))
 (.node 16 (.node 8 (.node 4 (.node 2 (.node 1 (.leaf 11204034560000000000108250854900000000000000112040345600000000001078714171000000000000001120403456000000000010957720911044701514000011204034560000000000107828886900000000000000112040345600000000001087973097000000000000001120403456000000000010560116620000000000000011204034561066090004000000000010668139140000112040345600000000001025061054107407881400001099431936000000000010271548511051635645000011204034560000000000103350334900000000000000112040345600000000000000000000000000000000001112801280000000000010740299731064812104385811204034560000000000111338683110575367520000112040345600000000001112686776104385638000001120403456000000000010617360480000000000000011204034560000000000000000000000000000000000)
 (.leaf 11204034560000000000110976672710352390360000112040345610571793731100845941103453129700001120403456000000000011111597601052128802000011204034560000000000108624525400000000000000112040345600000000001090123517000000000000001120403456000000000000000000000000000000000011204034560000000000000000000000000000000000112040345600000000000000000000102192087700001120403456000000000000000000000000000000000011204034561086873571110641361710523839973859112040345600000000001071570013103563300638601120403456000000000000000000001067915828386111204034560000000000000000000010946504590000112040345600000000000000000000109068026600001120403456106395803900000000001092656328386211204034560000000000000000000010882221370000))
 (.node 1 (.leaf 11204034560000000000000000000010958629513863112040345600000000000000000000109663660238641120403456000000000000000000001081496185000011204034560000000000000000000010776834920000110519910400000000000000000000105199563900001117519872000000000000000000001057638550000011167334400000000000000000000010877666410000112040345600000000000000000000106207447400001120403456000000000000000000001089093331386511175198720000000000000000000010858557750000112040345600000000000000000000105973184638661120403456000000000000000000000000000000000011204034560000000000000000000000000000000000112040345600000000000000000000000000000000001120403456000000000000000000000000000000000010779361280000000000000000000000000000000000)
 (.leaf 11120148480000000000104452933609998433130000112040345600000000001063962385105103924000001120403456000000000010249805230000000000000011204034560000000000000000000010661609210000111568486400000000000000000000104446872600001120403456000000000000000000001074505138000011204034560000000000000000000010828721253867112040345600000000000000000000108896673838681120403456000000000000000000001081004838386911204034560000000000000000000010839071303870112040345600000000000000000000107482178200001120403456000000000011006001551051943511000011204034560000000000107749908200000000000000112040345610646192461087117669000000000000001120403456000000000011016681821034996915000011204034560000000000110160196410492683340000)))
 (.node 2 (.node 1 (.leaf 11204034560000000000110038477700000000000000112040345600000000000000000000105037534100001120403456000000000010251147410000000000000011204034560000000000108096525410630715970000112040345600000000001062680605000000000000001120403456000000000010799728821057980926000011204034560000000000110225638010421818430000112040345611113133261112326459105973335900001120403456111575903111060430501052245300000011204034561079742598111334182110660478730000112040345611125154051108810138103376682600001120403456111937417700000000000000000000000011204034560000000000000000000010773157210000112040345600000000001081873741104021576000001120403456000000000000000000000000000000000011204034560000000000000000000000000000000000)
 (.leaf 11204034560000000000108958140300000000000000112040345600000000000000000000000000000000001120403456000000000000000000001068846339000011204034560000000000000000000000000000000000112040345600000000000000000000107714403700001120403456000000000010333825531041566854000011204034561068900758000000000000000000000000112040345600000000000000000000105103581600001120403456000000000000000000001036856719000011204034560000000000105388431100000000000000112040345600000000001063207410106983870300001120403456000000000000000000001028467065000011204034560000000000000000000010644848950000112040345600000000000976715828104736770300001120403456000000000000000000001036995895000011204034560000000000000000000010497833910000))
 (.node 1 (.leaf 11204034560000000000103230881110602004760000112040345600000000001040355164000000000000001120403456000000000010785900200000000000000011204034560000000000109296998210485570450000112040345610895907821093824152102696180400001120403456000000000010584275810000000000000011204034560000000000107045768400000000000000112040345600000000001085141942000000000000001120403456108570643910860823051053345074000011204034560000000000109535559710381284310000112040345600000000001108589307106691747300001120403456106651758010598351901081279555387111204034560000000000108452202410742591090000112040345600000000001101159780103705097600001118568448000000000010417912940000000000000011185684480000000000110771980210592717710000)
 (.leaf 11204034560000000000108246471800000000000000112040345600000000001061048182000000000000001120403456106238160211099499401033907830000011204034560000000000000000000000000000000000112040345600000000001100073140000000000000001120403456000000000010926886490000000000000011204034561052523981000000000000000000000000112040345600000000000000000000104320937900001120403456000000000000000000001034722258000011204034560000000000000000000000000000000000112040345600000000000000000000000000000000001120403456000000000000000000000000000000000011204034560000000000000000000000000000000000112040345600000000000000000000104480490200001120403456000000000011077995461075382805000011204034560000000000110742638410705949843872))))
 (.node 4 (.node 2 (.node 1 (.leaf 11204034560000000000106828922910850410540000112040345600000000000000000000109473841700001120403456000000000000000000001100798782000011204034560000000000000000000010992343413873112040345600000000000000000000109228950100001120403456000000000000000000001083482866387411204034560000000000000000000010928273223875112040345600000000000000000000108178142100001120403456000000000000000000001077104227000011148984320000000000000000000010800402970000112040345600000000000000000000104035787600001108344832000000000000000000001055438129000011204034560000000000000000000010901362700000112040345600000000000000000000107534262938761120403456000000000000000000001080879200000011196170240000000000000000000010791682550000)
 (.leaf 11204034560000000000000000000010414999840000112040345600000000000000000000000000000000001120403456000000000000000000000000000000000011204034561108389017105951138910736121360000112040345610300123460000000000107676501400001120403456000000000010361877041062308289000011204034560000000000000000000010601107380000112001024000000000001045515836105745212600001120403456000000000000000000001090202441000011204034560000000000000000000010830789670000112040345600000000000000000000108297787138771112801280000000000010484149391056307437000011156848640000000000109331223710725945330000110048051200000000001071267185104910392700001120403456107735301100000000001065932285000011204034560000000000000000000010648721070000))
 (.node 1 (.leaf 11204034560000000000000000000010539822120000112040345600000000000000000000000000000000001120403456000000000000000000000000000000000011204034560000000000000000000000000000000000112040345600000000001069391492000000000000001120403456105422092910755290171062773877387811204034560000000000111254128610582635310000112040345611163384871099788504108043761400001120403456111685472410848892351077118374000011204034561077520640106676585810000138940000112040345600000000001035368976000000000000001120403456000000000000000000000000000000000011204034560000000000000000000000000000000000112040345600000000000000000000103765661000001120403456000000000000000000000000000000000011204034560000000000000000000000000000000000)
 (.leaf 11204034560000000000000000000010411614090000112040345600000000001033677832108318136800001120403456000000000000000000001081756335000011204034560000000000105827826410589795680000112040345600000000000000000000102125894300001120403456000000000010502939870000000000000011204034560000000000106542703600000000000000112040345600000000000000000000000000000000001120403456000000000000000000001071129766000011204034561033321618102500736710536035530000112040345600000000001075560055000000000000001120403456000000000011044921540000000000000011204034560000000000109886549510461106510000112040345600000000001096948803000000000000001120403456000000000011100088431049461275000011204034560000000000110279844210417805970000)))
 (.node 2 (.node 1 (.leaf 11204034560000000000108848773910533576160000112040345600000000001074835698000000000000001077936128000000000010770041540000000000000010779361280000000000107538557200000000000000112040345610688938461113454962107163507500001120403456000000000011020372800000000000000011204034560000000000110856739200000000000000112040345600000000001098575354000000000000001120403456000000000010912560841035209608000011204034560000000000109711374400000000000000112040345600000000001056051927000000000000001120403456000000000010829997020000000000000011204034560000000000000000000000000000000000112040345600000000000000000000000000000000001120403456000000000000000000001049849096000011204034560000000000000000000010434235910000)
 (.leaf 11204034560000000000000000000010583790690000112040345600000000000000000000000000000000001120403456000000000000000000000000000000000011204034560000000000110754115110640924893879112040345600000000001107726775107788837000001120403456000000000011041159771092591027388011204034560000000000109327427810998793153881112040345600000000001097208535109219159538821120403456105643364310458513801098390079388311204034561083423930108311106010966543043884112040345600000000000000000000109147562038851120403456000000000000000000001083199455000011204034560000000000000000000010801225850000112040345600000000000000000000109253691038861120403456000000000000000000001098053130000011204034560000000000000000000010760043920000))
 (.node 1 (.leaf 11171266560000000000000000000010698095930000109051904000000000000000000000103817167800001109917696000000000010701808601075284418000011204034561075925068110056177710850120670000112040345600000000001088568898107401669000001100480512000000000000000000001024754755000011075584000000000000000000000010821434760000112040345600000000000000000000104830898400001120403456000000000000000000001083707686000011204034560000000000000000000010835836460000112040345600000000000000000000000000000000001120403456000000000000000000000000000000000011204034560000000000000000000010665426883887112040345600000000000000000000108556710400001120403456000000000000000000001085687078000011204034560000000000000000000010758916880000)
 (.leaf 11196170240000000000000000000010677517560000110913126400000000000000000000104903793100001120403456000000000000000000001073235375000011204034560000000000000000000010580747000000112040345600000000000000000000109894294500001120403456000000000000000000001083381112388811204034560906377149110602726910854209770000110205337600000000000000000000104273475600001120403456000000000010315571921075310672000011204034560000000000106157498700000000000000112040345600000000000000000000000000000000001120403456000000000000000000001037705637000011204034560000000000000000000000000000000000112040345600000000000000000000000000000000001120403456000000000000000000000000000000000011204034560000000000000000000000000000000000)))))
 (.node 8 (.node 4 (.node 2 (.node 1 (.leaf 11204034561080861638105678005910870259743889112040345600000000001058479591000000000000001120403456000000000011047487931057515695000011204034561103548007110888186010760716060000112040345611189316971054042017105441831100001120403456106544573411177941661075497619000011204034561117623214109096678210912837840000112040345611190863230000000000000000000000001120403456111823070210930467370000000000000011204034561118625051109064927310673506970000112040345611189809051047609632105679074200001120403456106748656510385633570000000000000011204034560000000000097671582800000000000000112040345610547932671095311871000000000000001120403456000000000000000000000000000000000011204034560000000000000000000000000000000000)
 (.leaf 11204034560000000000000000000010475109710000112040345600000000000000000000000000000000001120403456000000000000000000000000000000000011204034560000000000000000000010683522960000112040345600000000000000000000107026815500001120403456000000000000000000000000000000000011204034560000000000000000000010407713770000112040345610648400681099338455108459739700001120403456000000000010334228190000000000000011204034560000000000105206230500000000000000112040345600000000001050210101000000000000001120403456000000000010541661680000000000000011204034560000000000104398575400000000000000112040345600000000000000000000104443162000001120403456000000000010944811890000000000000011204034560000000000110151786800000000000000))
 (.node 1 (.leaf 11204034561117130499104202617500000000000000112040345610767838861104295546000000000000001120403456000000000011057489250000000000000011204034560000000000110807456210342651270000112040345600000000001089593357000000000000001120403456000000000010535688991034429308000011204034560000000000104189195700000000000000112040345600000000001078767439106049048000001120403456000000000010417308961047487956000011135877120000000000109561197410758755970000112040345600000000001101997120102761564100001120403456000000000010955614320000000000000011204034560000000000111494021810864892590000112040345610743282251084199272103478989200001120403456000000000011110042831030198675000011204034560000000000000000000000000000000000)
 (.leaf 11204034560000000000000000000000000000000000112040345600000000000000000000104333997700001120403456000000000000000000001038944885000011204034561053444111110298293910508512440000112040345600000000001108005854105890328200001120403456000000000011055135201058005528389011204034561033592604107161447310987540463891112040345600000000001077467624109388615100001120403456110170787011069042461100498384000011204034561107249495108137252110913300493892112040345610617151441092510286110369096100001120403456000000000000000000001064608126000011179130880000000000000000000010691064320000111280128000000000000000000000108302593400001114112000000000000000000000001085265086000011196170240000000000000000000010771781270000)))
 (.node 2 (.node 1 (.leaf 11204034560000000000000000000010804043670000112040345600000000000000000000107531011100001119354880000000000000000000001068172944000011204034560000000000000000000010824505350000112040345600000000000000000000000000000000001120403456000000000000000000000000000000000011204034560000000000000000000000000000000000112040345600000000000000000000000000000000001120403456000000000000000000000000000000000011075584000000000000104770358510234831290000112040345600000000001022524339105765739400001120010240104538483910726739541076881905000011135877120000000000107381858010704082010000111122841600000000000000000000107810192700001105199104000000000010249805230000000000000011204034560000000000000000000010830550260000)
 (.leaf 11204034560000000000000000000010790746233893112040345600000000000000000000109151194900001120403456000000000000000000001085905410000011204034560000000000000000000010844442290000112040345600000000000000000000108920516238941120403456000000000000000000001073721560000011204034560000000000105442789310911681803895112040345600000000001102134221108010513900001120403456000000000000000000001059239654000011204034560000000000000000000010720714020000112040345600000000000000000000105815905600001120403456000000000000000000001037466025000011204034560000000000000000000010278206330000112040345600000000000000000000104724698600001120403456000000000000000000001070935862000011204034560000000000000000000000000000000000))
 (.node 1 (.leaf 11204034560000000000000000000010601182220000112040345600000000000000000000000000000000001120403456097692198710893681230000000000000011204034561112653266110097869010921410400000112040345611181140001077709216108857857700001120403456110808074011085965161061583474000011204034560000000000111296467410907831230000112040345610591971521116797783106821467400001120403456111738263210511630471072359446000011204034561119436226102511474100000000000000112040345611185151851033449662000000000000001120403456000000000010678664430000000000000011204034560000000000109627540800000000000000112040345600000000001087602950000000000000001120403456000000000000000000000000000000000011204034560000000000000000000000000000000000)
 (.leaf 11204034560000000000000000000000000000000000112040345600000000000000000000105248046100001120403456000000000010433146651047821639000011204034560000000000105274681600000000000000112040345600000000000000000000105143500800001120403456000000000000000000000000000000000011204034560000000000106594461300000000000000112040345600000000001055659341000000000000001120403456000000000011049401581074410786000011204034561069990933109537635900000000000000112040345600000000001100733324000000000000001120403456107853534711033811351005534467000011204034560000000000109197362500000000000000112040345600000000001102480880000000000000001120403456000000000010993424921059872668000011204034560000000000108283528500000000000000))))
 (.node 4 (.node 2 (.node 1 (.leaf 11204034560000000000103649640410587958700000112040345600000000001083469254103446127900001120403456000000000010438381141076061580000011083448320000000000108507063910500039563896109681049610215901841090684296105407423300001120403456000000000010936967500000000000000011204034560000000000111320390700000000000000112040345600000000001088780920000000000000001120403456105420942011051691151042191308000011204034560000000000111411147610390052230000112040345600000000001100957509000000000000001120403456000000000010722226471027179132000011204034560000000000000000000010432964390000112040345600000000001097147823106536468300001120403456000000000000000000000000000000000011204034561060171170000000000010406938810000)
 (.leaf 11204034560000000000000000000010569562150000112040345600000000000000000000103330174400001120403456000000000000000000001029339255000011204034560000000000000000000010327100850000112040345600000000001107995735104469768200001120403456000000000011074397801067786731389711204034560000000000110883436010506156050000112040345600000000001107238008108900065500001120403456000000000010759090211096081694000011204034561075299035110425727310944622593898112040345611085588861084706574109570580338991120403456000000000010384022961090670009390011204034560000000000000000000010970595383901112040345600000000000000000000107958733500001120403456000000000000000000001090709264390211204034560000000000000000000010915991313903))
 (.node 1 (.leaf 11204034560000000000000000000010846998893904112040345600000000000000000000109021753039051120403456000000000000000000001099109183390611204034560000000000000000000010971566133907111634022400000000000000000000107305586600001102053376000000000000000000001051928653000011193548800000000000000000000010703505040000110913126400000000000000000000105122585600001120403456000000000000000000001074009872000011204034560000000000000000000000000000000000112040345600000000000000000000000000000000001120403456000000000000000000000000000000000010863247360000000000102653744900000000000000112040345600000000000000000000107214834600001120403456000000000000000000001088536000000011204034560000000000000000000010843381770000)
 (.leaf 11135877120000000000000000000010756387380000107793612800000000000000000000104049017700001120403456000000000000000000001065379143000011204034560000000000000000000010852806813908112040345600000000000000000000109280589839091120403456000000000000000000001065394322391011204034560000000000000000000010921462930000112040345600000000000000000000109410231639111120403456000000000000000000001088095736000011204034560000000000000000000010659867480000112040345600000000000000000000103939560800001120403456000000000000000000001070628312000011204034560000000000000000000010524116360000112040345600000000000000000000000000000000001120403456000000000000000000000000000000000011204034561083601746105472988310323680130000)))
 (.node 2 (.node 1 (.leaf 11204034560000000000102506105410472510080000112040345600000000001099636618102823976200001120403456105204677010972508981033239082000011204034560000000000110675251710748464290000112040345600000000001118067569108340881100001120403456000000000010990971260000000000000011204034560000000000105283070210571542600000112040345600000000001067359771105461096200001120403456000000000010687623460000000000000011204034560000000000104520042400000000000000112040345610360426141063942252106173313700001120403456109962523210880888600000000000000011204034561104519544107082594400000000000000112040345610994062031082489255000000000000001120403456110763241810877218590000000000000011204034560000000000103798622100000000000000)
 (.leaf 11204034560000000000107844238000000000000000112040345600000000001067460434000000000000001120403456000000000011011661231070596561000011204034560000000000109596502910638213210000112040345600000000001087320883107789389300001120403456000000000000000000000000000000000011204034560000000000000000000000000000000000112040345600000000001058234643104126097100001120403456000000000010251147411020729067000011204034560000000000103838887400000000000000112040345600000000001110247578103430795900001120403456104345921811024572871033563873000011204034561095228358109328140900000000000000112040345600000000001109489143106668090200001120403456000000000011116728810000000000000011204034560000000000110921404900000000000000))
 (.node 1 (.leaf 11204034561105915314108608964510583885210000112040345600000000001055481502102371945100001120403456000000000010993844360000000000000011204034560000000000110110729800000000000000112040345600000000001075828910107790367900001120403456000000000010880899090000000000000011204034560000000000107554076110529175790000112040345600000000001046898278000000000000001120010240000000000010668078011082167066391211204034560000000000111683879610496886220000112040345600000000001116116156104880896700001120403456000000000000000000001071128449391311204034560000000000000000000010769029160000112040345600000000000000000000106848630700001120403456000000000000000000001056605566000011204034560000000000000000000010753990880000)
 (.leaf 11204034560000000000000000000010576258770000112040345600000000000000000000106862827300001120403456000000000000000000001040069548000011204034560000000000000000000000000000000000112040345600000000001106836403109175244500001120403456000000000011081210921085075363000011204034561051305217107273770810949466473914112040345610314769301093919677109806021939151120403456110339990710946527361080183688000011204034560000000000106551008310934757023916112040345600000000000000000000108661110539171120403456000000000000000000001077243707391811204034560000000000000000000010906959913919112040345600000000001015598704109975103000001120010240000000000010805462431101780939392011128012800000000000000000000010749166840000))))))))))))
 (.node 1024 (.node 512 (.node 256 (.node 128 (.node 64 (.node 32 (.node 16 (.node 8 (.node 4 (.node 2 (.node 1 (.leaf 11099176960000000000000000000010735055970000111935488000000000000000000000108836882800001109917696000000000000000000001067242621000011204034560000000000000000000000000000000000112040345600000000000000000000000000000000001120403456000000000000000000001071509473000011204034560000000000000000000010511413070000112040345600000000000000000000105273557900001120403456110014835410215042841080337752000011120148480000000000000000000010635825660000112040345600000000000000000000103281323700001120403456000000000000000000001080099501000011204034560000000000000000000010945703163921112040345600000000000000000000109220954539221120403456000000000000000000001079744248392311204034560000000000000000000010936832080000)
 (.leaf 11204034560000000000000000000010838902943924112040345600000000001087500190107253934600001120403456000000000011004185411082080201000011204034560000000000000000000010697640830000112040345600000000000000000000105515576800001120403456000000000000000000001074895771000011204034560000000000000000000009877072350000112040345600000000000000000000000000000000001120403456000000000000000000001058561780000011204034560000000000000000000010429854280000112040345610751990550000000000000000000000001120403456000000000000000000000000000000000011204034561059045536110956865110464125770000112040345600000000000000000000104341922400001120403456000000000010952787361054354933000011204034560000000000111330800410909155020000))
 (.node 1 (.leaf 11204034561041292138111665335510927960290000112040345600000000001107726067103832735000001120403456000000000000000000001048191017000011204034561119295804102508789800000000000000112040345611154280401075529436000000000000001120403456108302727710953867400000000000000011204034560000000000000000000000000000000000112040345600000000001096543214103560212100001120403456000000000000000000000000000000000011204034561049413653110149836510497717200000112040345600000000001024980523105017150539251120403456000000000000000000001013069132000011204034560000000000000000000010427244510000112040345600000000001095688834105251411300001120403456000000000000000000001058919159000011204034560000000000000000000010370158400000)
 (.leaf 11204034560000000000000000000010287556180000112040345600000000000000000000106839961800001120403456105939629810727326740000000000000011204034560000000000106324096500000000000000112040345600000000001033489927107488722600001120403456000000000000000000001073696572000011204034560000000000103013448400000000000000112040345600000000001102856113000000000000001120403456000000000010929567690000000000000011204034560000000000110886589600000000000000112040345600000000001091254092000000000000001120403456000000000010758972770000000000000011204034560000000000000000000010431477590000112040345600000000001101879732102945414200001120403456000000000010573605501047519975000011204034560000000000107871249410535343410000)))
 (.node 2 (.node 1 (.leaf 11204034560000000000108363241200000000000000112040345600000000001093702097104301931900001120403456108961078710956585301085002090392611185684481089091752109107143010772620583927111817523210608347931087846220108727184900001120403456106833238011145193461099587903000011204034561060693898111056393310583717620000112040345600000000001114266036106408835700001120403456104397709711145572251074469717000011204034560000000000000000000000000000000000112040345600000000001106503585000000000000001120403456103889594910976170611065398836000011204034561060709316109707253510741762820000112040345600000000000000000000105423363400001120403456000000000000000000000000000000000011204034560000000000000000000010368778190000)
 (.leaf 11204034561061526333000000000010664065350000112040345609792069091100555747105183428700001120403456000000000010321611721052858184000011204034560000000000000000000010844562880000112040345600000000000000000000107591883200001120403456000000000000000000000000000000000011204034560000000000111336475910514587260000112040345600000000001112162986108650627700001120403456000000000011157110001089729623392811204034561090025423110276106010919077583929112040345600000000000000000000108735294139301120403456000000000000000000001091905746000011204034560000000000000000000010982793823931110677196800000000000000000000105859940500001112014848000000000000000000001071373042000011204034560000000000000000000000000000000000))
 (.node 1 (.leaf 11204034560000000000000000000000000000000000112001024000000000001057095470106612324000001120403456000000000000000000001065663344393211204034560000000000000000000010660022440000112040345600000000000000000000105515600000001120403456000000000000000000001071633159393311083448320000000000000000000010582733600000112040345600000000000000000000108261850539341120403456000000000000000000001087148149393511204034560000000000000000000010837127843936112040345600000000000000000000108017020539371120403456000000000000000000001076979701393811204034560000000000000000000010764912243939112040345609876470571099303433106651555400001120403456000000000000000000001050366814000011204034560000000000107722519310340274900000)
 (.leaf 11204034560000000000000000000000000000000000112040345600000000000000000000104001781300001120403456000000000000000000001041698664000011204034561064532894000000000010592519780000112040345600000000001025785830105323120600001120403456105240543311018996020000000000000011204034561095520026107621604410512787000000112040345600000000001082582997000000000000001120403456108280493511125730841084408634000011204034561112655373109154832210911661550000112040345610869440021111195700108584855400001120403456111258265810999538121099127835000011204034561053222148111298651110892308480000112040345610881881831111748955107934379800001120403456107300187311128894131074484857000011204034560000000000109977838610717006300000))))
 (.node 4 (.node 2 (.node 1 (.leaf 11204034561046124849111218028710766222210000112040345600000000001103153018108495628100001120403456000000000010250073670000000000000011204034560000000000000000000000000000000000112040345611068800041078400018097201244500001120403456110156127510719860881020215404000011204034560000000000106628602900000000000000112040345600000000001025410020000000000000001120403456000000000010251415850000000000000011204034560000000000106869188200000000000000112040345600000000000000000000000000000000001120403456000000000000000000000000000000000011204034560000000000000000000010358646400000112040345600000000000000000000000000000000001120403456000000000000000000001044181253000011204034560000000000000000000010359018180000)
 (.leaf 11204034560000000000000000000010488098240000112040345600000000000000000000104301373900001120403456000000000000000000001064991306000011204034560000000000000000000010448222540000112040345600000000001051354307000000000000001120403456000000000010597865360000000000000011204034560000000000102508789800000000000000112040345600000000001069518999102898454000001120403456000000000011157115110000000000000011204034560000000000109926023200000000000000112040345600000000001092285576000000000000001120403456000000000010798717990000000000000011204034560000000000000000000010235880660000112040345600000000000000000000104103815700001120403456000000000011000120610000000000000011204034560000000000106818269310324978920000))
 (.node 1 (.leaf 11204034560000000000108039524810251138790000112040345600000000001064509322104613379000001117519872107711170811077613521068363144000011204034560000000000111541713610888797503940112040345600000000001097237686000000000000001120403456000000000000000000000000000000000011204034560000000000000000000010588013370000112040345600000000000000000000103556912500001120403456000000000000000000001058620450394111204034560000000000108620394010669900820000112040345600000000000000000000106883275900001120403456000000000000000000001050949733000011204034561029881618000000000010429194010000112040345600000000000000000000107571219100001120403456000000000000000000000000000000000011204034561062649182000000000010397386950000)
 (.leaf 11204034560000000000110163588510426287280000112040345600000000001116100769108415885300001120403456000000000011079805571060354699000011204034560000000000110955087810635523260000112040345600000000001116729718106046049800001120403456102558987211149232571076149084394211204034561055122436110084085510604225073943112040345610389413151052515290109737877139441120403456000000000000000000001091801755394511204034560000000000000000000010849632983946112040345600000000000000000000109210308800001120403456000000000000000000001091405142394711204034561069344801111423043710996210250000112040345600000000000000000000108643802200001120403456000000000000000000001072057293000011204034560000000000000000000010789855420000)))
 (.node 2 (.node 1 (.leaf 11204034560000000000000000000000000000000000112040345600000000000000000000000000000000001120403456000000000000000000000000000000000011204034560000000000106072438210737603860000112040345610486910250000000000106718845000001120403456000000000000000000001078884749394811204034560000000000000000000010653500350000112040345600000000000000000000106757752700001115684864000000000000000000001076794300000011204034560000000000000000000010821707240000112040345600000000000000000000109148859600001120403456000000000000000000001081456611394911204034560000000000000000000010751640153950112040345600000000000000000000108873800939511120403456000000000010975900071075082125000011204034560000000000000000000010676973090000)
 (.leaf 11204034560988652079108266667400000000000000112040345600000000000000000000106618655400001120403456000000000000000000001044811604000011204034560000000000104409983909989794000000112040345600000000000000000000000000000000001120403456108106614810874444051044254813000011204034561074623207108652040010782533370000112040345600000000001107781170108272340400001120403456000000000010841409721064310362000011204034560000000000000000000010533561690000112040345600000000000000000000000000000000001120403456000000000000000000001054589431000011204034560000000000000000000000000000000000112040345610961318311023530972105534661800001120403456000000000000000000000000000000000011204034560000000000000000000010267508373952))
 (.node 1 (.leaf 11204034560000000000000000000010324743970000112040345600000000000000000000000000000000001120403456000000000000000000000000000000000011204034560000000000000000000000000000000000112040345600000000000000000000000000000000001120403456000000000000000000001034377214000011204034560000000000000000000010670709240000112040345600000000000000000000000000000000001120403456103889903610416973410000000000000011204034560000000000106337014900000000000000112040345600000000001033449662103129239400001120403456000000000010458111151019746147000011204034560000000000106742016910540757940000112040345600000000001109916097000000000000001120403456000000000011175486421017791623000011204034560000000000111679410000000000000000)
 (.leaf 11204034560000000000111038499400000000000000111607808000000000001093525412000000000000001112014848000000000010756439410000000000000011204034560000000000104930413110545528450000112040345600000000001075958933000000000000001120403456000000000010744401760000000000000011204034561062135145105031412000000000000000112040345600000000001068181016000000000000001120010240109133071411148852461090689056000011204034560000000000111622874710907712370000112040345600000000001115147783109786906300001120403456106859794610943172971031528239000011204034560000000000000000000010838680040000112001024000000000001084677843106688740100001120403456000000000010770314171066317961000011204034560000000000000000000000000000000000)))))
 (.node 8 (.node 4 (.node 2 (.node 1 (.leaf 11204034560000000000000000000010822372240000112040345600000000000000000000107501403500001120403456000000000000000000001093440996395311204034560000000000000000000010968598243954112040345600000000001038227813109104262400001120403456104242554010690072941098963206000011204034560000000000000000000010923383083955112040345600000000000000000000109098678439561120403456000000000000000000001083208445000011204034560000000000000000000010919957910000111634022400000000000000000000106928018000001093664768000000000000000000001028722967000011204034560000000000000000000010537123390000112040345600000000000000000000000000000000001120403456000000000009784338151059255884000011204034560000000000000000000010844458960000)
 (.leaf 11204034560000000000000000000010903852770000112040345600000000000000000000109108572239571120403456000000000000000000001071729697395811204034560000000000000000000010438291093959112040345600000000000000000000106336145000001120403456000000000000000000001041501177000011204034560000000000000000000000000000000000112040345610384037730000000000000000000000001120403456000000000000000000001065059907000011204034560000000000000000000010496065350000112040345610529933070000000000105166739500001120403456000000000000000000001055560813000011204034560000000000000000000000000000000000112040345600000000000000000000000000000000001120403456000000000010359058460000000000000011204034560000000000102500736700000000000000))
 (.node 1 (.leaf 11204034560000000000102503421100000000000000112040345610852379061041140338000000000000001120403456000000000011080387001055273432000011204034560000000000000000000000000000000000112040345600000000000000000000103235221000001120403456000000000000000000000000000000000011204034560000000000000000000000000000000000112040345600000000000000000000000000000000001120403456000000000010965733081032171839000011204034560000000000000000000000000000000000112040345600000000001088918074000000000000001120403456000000000010928780210000000000000011204034560000000000102506105400000000000000112040345600000000000000000000000000000000001120403456000000000000000000001048750863000011204034560000000000000000000000000000000000)
 (.leaf 11204034560000000000000000000000000000000000112040345600000000000000000000000000000000001120403456000000000000000000000000000000000011204034560000000000109388287200000000000000112040345600000000000000000000000000000000001120403456000000000000000000001034347779000011204034560000000000000000000000000000000000112040345610790691140000000000000000000000001120403456000000000010336375671041167851000011204034560000000000105601837310629492060000112040345600000000001070624617105875719100001120403456000000000010748449261043133038000011204034561100979526109343093610318127080000112040345600000000001099570610000000000000001120403456000000000011017183040000000000000011204034560000000000110975299100000000000000)))
 (.node 2 (.node 1 (.leaf 11204034561068339502111861929110327915260000111896166400000000001100839807000000000000001086324736000000000010523240301029011966000011189616640000000000107701212300000000000000109051904000000000001071928207000000000000001103626240000000000010676441451026836458000011204034560000000000107614516010447380220000112040345600000000001092626992105823765000001120403456000000000010697924670000000000000011204034560000000000109942700810554354940000111935488000000000001045180291000000000000001120403456000000000010913688060000000000000011204034560000000000109201682600000000000000112040345600000000001102380112000000000000001120403456000000000010900260001061741299000011189616640000000000110040480510773802940000)
 (.leaf 11128012800000000000000000000010756639500000109943193600000000001068138234000000000000001119617024000000000010774521051059972470000011204034561046115521000000000010616440600000112040345600000000000000000000107378586800001120403456000000000000000000000000000000000011204034560000000000000000000000000000000000112040345600000000000000000000103657536439601120403456000000000000000000001071236540000011204034560000000000000000000010683880750000112040345600000000000000000000103705465400001120403456000000000000000000001055648669000011204034560000000000105152207910289412730000112040345600000000001116848757107449053400001120403456000000000010346442001089806467000011204034560000000000000000000010994552660000))
 (.node 1 (.leaf 11204034560000000000000000000010833838843961112040345600000000000000000000109001605239621120403456000000000000000000001074631242000011204034560000000000000000000010542283970000112040345600000000001047200268107736012600001120403456000000000010638633991067242067000011204034560000000000000000000010784924390000112040345610554994871038415718106007830000001120403456111585045410528743231072856955000011204034560000000000000000000010928643780000110048051200000000000000000000103630453900001120403456000000000000000000000000000000000011204034561057594693000000000010748551313963112040345600000000000000000000105620909800001120403456105034814410989442430000000000396411204034560000000000000000000000000000000000)
 (.leaf 11204034560000000000000000000000000000000000112040345600000000000000000000000000000000001120403456000000000000000000001048436583000011204034560000000000000000000010410039110000112040345611106429841092171596109170128600001120403456107693269511144663661076010592000011204034561096724678106166893910853849713965112040345600000000001107474802104641063600001120403456106066619910830464681051114220000011204034561091703487110139051900000000000000112040345600000000001097437335000000000000001120403456000000000010638030010000000000000011204034560000000000000000000010532565220000112040345600000000000000000000000000000000001120403456000000000000000000000000000000000011204034560000000000000000000000000000000000))))
 (.node 4 (.node 2 (.node 1 (.leaf 11204034560000000000108427393100000000000000112040345600000000000000000000000000000000001120403456000000000000000000000000000000000011204034560000000000000000000000000000000000112040345600000000000000000000000000000000001120403456000000000000000000000000000000000011204034560000000000107641066000000000000000112040345600000000000000000000000000000000001120403456000000000000000000000000000000000011204034560000000000000000000000000000000000112040345600000000000978433815000000000000001120403456000000000010418785351049630009000011204034560000000000108996958600000000000000112040345610585865291093505909000000000000001120403456000000000011129588810000000000000011204034560000000000111078762100000000000000)
 (.leaf 11163402240000000000109990411000000000000000112040345600000000001033355710105510330000001119617024000000000011118154611100807831396611204034560000000000111619524510910655600000112040345600000000001107749660103810167200001120403456000000000011079788001090718246396711204034560997500249110949464810296482900000112040345600000000000000000000106642571839681117519872000000000000000000001083747444000011179130880000000000108715164310536092093969112040345600000000000000000000106578269039701116078080000000000000000000001060464671000011204034561050427265000000000010507984540000112040345600000000000000000000105437409339711120403456000000000000000000001084432991397211204034560000000000000000000010526166140000))
 (.node 1 (.leaf 11204034560000000000000000000010538360600000112040345600000000000000000000000000000000001120403456000000000011168573951075425842000011204034560000000000111689617910721191970000112040345600000000001116920689106398749500001120403456000000000010253831771085009442000011204034561015170281098939940410921546243973112040345600000000000000000000109712418239741120403456000000000010250878981096021858397511204034561090442699107201712610911412873976112040345600000000000000000000109620139039771120403456100688260500000000001086178478000011204034560000000000103982500410733236290000112040345600000000000000000000108401672300001120403456000000000000000000001087171810000011185684480000000000000000000010776212070000)
 (.leaf 10863247360000000000000000000000000000000000110362624000000000000000000000103487417000001116340224000000000000000000001066751157000011135877120000000000000000000010587090660000110755840000000000000000000000107194497500001096810496000000000000000000001059741167000011204034560000000000000000000000000000000000112040345610750404560000000000105651809500001120403456000000000010892261461074176590000011204034560000000000000000000010598651780000112040345610585849850000000000103270598300001120403456000000000000000000000000000000000011204034560000000000000000000010414297710000112040345600000000000000000000107255133800001120403456000000000000000000001049172730000011204034561097003074110944887810871731600000)))
 (.node 2 (.node 1 (.leaf 11204034561108287349109132445110964814450000112040345600000000001089577209105487931000001120403456109541434110944480540000000000000011204034560000000000101683350710349954720000112040345600000000001075014795104081788900001120403456000000000011105608931066668688000011204034561087374065111029243110390185630000112040345600000000001100884633000000000000001120403456106596709411043807950000000000000011204034560000000000109539261200000000000000112040345610687091710000000000105945466700001120403456000000000000000000000000000000000011204034560000000000000000000000000000000000112040345600000000000000000000000000000000001120403456000000000000000000001070142806000011204034560000000000000000000000000000000000)
 (.leaf 11204034560000000000000000000010318452070000112040345600000000000000000000000000000000001120403456000000000000000000000000000000000011204034560000000000000000000000000000000000112040345600000000000000000000000000000000001120403456000000000000000000000000000000000011204034560000000000104026121210499123190000112040345610460594181086745215000000000000001120403456106893296210983211790000000000000011204034561079365115110640024800000000000000112040345600000000001102678852000000000000001120403456000000000011091581600000000000000011204034560000000000111414893610324415220000109943193600000000001056431093000000000000001107558400000000000000000000000000000000000011204034560000000000104541517300000000000000))
 (.node 1 (.leaf 11104419840000000000109942957710916330760000112040345610502571111075297491104010787500001090519040000000000000000000000000000000000010863247360000000000107576264000000000000000110362624000000000001091953177105301786000001113587712000000000010739720911077847279000011204034560000000000000000000010336006600000112040345600000000000000000000106624338739781120403456000000000000000000001072107275000011204034561049050594000000000010458532100000112040345600000000001116693607108014429539791120403456101673311211110985761061746989000011204034560000000000111678678610145673920000112040345600000000001117081069103562162900001120403456000000000011164108981086813487000011204034560000000000111671886510607939010000)
 (.leaf 11204034561027121028105949461210922881293980112040345600000000001069188488109571794839811120403456111361875610861068421099118862398211204034561114193489108497626710876488803983112040345611176540951075973194109194066100001120403456111232316710903634311099676224000011204034560000000000000000000010970929460000112040345600000000000000000000109626666939841117913088000000000000000000001068979680000011204034560000000000000000000010674993203985112040345600000000000000000000107358514239861120403456000000000000000000001090241850000011204034561084645502104418036910919060930000111568486400000000000000000000108470359300001093664768000000000000000000001071661362000011036262400000000000000000000000000000000000))))))
 (.node 16 (.node 8 (.node 4 (.node 2 (.node 1 (.leaf 10863247360000000000000000000000000000000000111568486400000000000000000000106906771300001120403456000000000000000000001053714439000011204034561085130030108629160100000000000000112040345600000000000000000000104924958039871120403456000000000000000000000000000000000011204034560000000000000000000010470563610000112040345600000000000000000000000000000000001120403456000000000000000000000000000000000011204034560000000000000000000000000000000000112040345600000000000000000000000000000000001120403456000000000000000000001058208754000011204034561109948914107595390010737648610000112040345610623843371116309868106283912100001120403456108195757610931302040000000000000011204034561068417851105988887710332067250000)
 (.leaf 11204034561068883218110200105210373786820000112040345610251316531112558797106435003700001120403456000000000011013314841067911607000011204034560000000000000000000000000000000000112040345600000000000000000000000000000000001120403456000000000000000000000000000000000011204034560000000000000000000000000000000000112040345600000000000000000000000000000000001120403456000000000000000000000000000000000011204034560000000000000000000000000000000000112040345600000000000000000000000000000000001120403456000000000000000000001045199525000011204034560000000000000000000010350708690000112040345600000000000000000000105079135700001120403456000000000010820360600000000000000011204034560000000000000000000000000000000000))
 (.node 1 (.leaf 11204034560000000000000000000010336545810000112040345600000000000000000000000000000000001120403456105499734500000000000000000000000011204034560000000000000000000000000000000000112040345600000000000000000000104124154700001120403456000000000010635798640000000000000011204034560000000000110169465810322310610000112040345610822704531100658560103647743800001118568448000000000010609424860000000000000010905190400000000000000000000010321150530000112040345600000000001096829685106218175500001120403456000000000011005383931062922946000011204034560000000000109743607610941923793988112040345600000000000000000000098057880939891118568448000000000010807656051078718230399011148984320000000000109545468710797876390000)
 (.leaf 11204034560000000000107937519410833490720000111712665600000000001055984819102976508700001120403456000000000000000000001053838614000011204034560000000000000000000010530298060000112040345600000000000000000000104855166200001120403456000000000000000000001056199281000011204034561052332083000000000010360751570000112040345610531898351113048613104341044600001120403456000000000011168406961071845664000011204034560000000000102994657911003627100000112040345600000000001076057080109906685000001120403456106237601510873481461100809987399111204034560000000000000000000010848584070000112040345600000000000000000000109139018639921120403456000000000000000000001095705286399311204034560000000000000000000010895478640000)))
 (.node 2 (.node 1 (.leaf 11200102400000000000000000000010760725820000111751987200000000000000000000102774652200001119354880000000000010249805231075536209399411204034560000000000105728169710720979393995112040345600000000001040650443109104278039961120403456000000000000000000001086545397399711204034560000000000000000000010789967843998111489843200000000000000000000107258576539991118568448000000000000000000001049850573000011204034560000000000000000000000000000000000112040345600000000000000000000107104127700001120403456104029939710894247460000000000000011204034560000000000109216373110386587980000112040345600000000001092140138105090033700001120403456000000000000000000001028233240400011204034560000000000000000000000000000000000)
 (.leaf 11204034560000000000000000000010267430320000112040345600000000000000000000000000000000001120403456000000000000000000000000000000000011204034560000000000000000000000000000000000112040345600000000000000000000105488329400001120403456000000000000000000000000000000000011204034560000000000000000000010467663130000112040345600000000000000000000000000000000001120403456000000000010985893001037249710000011204034561080464903110948814700000000000000112040345611148471251060091881107856481800001120403456110538442100000000000000000000000011204034561114560573105534057310659675400000112040345610843386811107519052106273894100001120403456107061278911034803311025895321000011204034560000000000107413944410400080300000))
 (.node 1 (.leaf 11204034561057428011000000000010239173860000112040345600000000000000000000000000000000001120403456000000000000000000000000000000000011204034560000000000000000000000000000000000112040345600000000000000000000000000000000001120403456000000000000000000000000000000000011204034560000000000000000000000000000000000112040345600000000001064078148000000000000001120403456000000000000000000000000000000000011204034560000000000000000000000000000000000112040345600000000000000000000000000000000001120403456000000000000000000000000000000000011204034560000000000000000000000000000000000112040345600000000000000000000000000000000001117913088000000000010340804850000000000000011204034560000000000000000000010460168820000)
 (.leaf 11204034560000000000105788735500000000000000112040345600000000001092186276108861875240011120403456000000000000000000001067793993000011204034560000000000000000000010600338450000112040345600000000000000000000102402211400001120403456000000000011068645570000000000000011204034561065824454110923743210588419014002112040345600000000001106068688108464654800001120403456000000000000000000001086664917000011204034560000000000000000000010862017730000112040345600000000001025356333109749480900001120403456104612659410689578011099035351000011204034560000000000000000000011003768560000112040345600000000000000000000110053487340031120403456000000000000000000001091852644400411179130880000000000103542266310850420640000))))
 (.node 4 (.node 2 (.node 1 (.leaf 11179130880000000000000000000010864371964005109681049600000000000000000000104093509900001120403456000000000000000000001050786211000010779361280000000000106701164410303958580000111791308800000000001033382553107761465800001120403456000000000000000000001070569659400611185684480000000000000000000010911961530000112040345600000000000000000000106862033500001120403456000000000000000000000000000000000011204034560000000000000000000010714807200000112040345600000000000000000000000000000040071120403456000000000000000000000000000000000011204034560000000000000000000000000000000000112040345600000000000000000000104579715200001120403456000000000000000000001067543244000011204034561076668219110726689610514281630000)
 (.leaf 11204034561091499482110795502400000000000000112040345610838196001111186499106085857900001120403456102477624411084818551055281165000011204034561050255332110745181210396237110000112040345611110774901045166870106198555600001120403456000000000011043310401067904219000011204034561087560921110658988300000000000000112040345600000000001103105727107599823300001120403456000000000000000000001050272156000011204034560000000000000000000000000000000000112040345600000000000000000000000000000000001120403456000000000000000000000000000000000011204034560000000000105724982100000000000000112040345600000000000000000000000000000000001120403456000000000000000000000000000000000011204034560000000000101683350700000000000000))
 (.node 1 (.leaf 11204034560000000000000000000000000000000000112040345600000000000000000000102302522100001120403456000000000000000000001048940673000011204034560000000000000000000000000000000000112040345600000000000000000000000000000000001120403456000000000000000000001071528260000011193548801032047087107593838110760217270000112040345610632844171099705405106603813640081120403456000000000000000000001051837288000011204034560000000000000000000010553613200000112040345600000000000000000000106466255000001120403456000000000000000000001040415644000011204034560000000000000000000010498846400000112040345600000000001116954847102267725200001120403456106139307211079721681024338875000011204034561065032603111547105910780389714009)
 (.leaf 11204034560000000000110754369410840086920000112040345600000000000000000000108851344100001120403456000000000000000000001091669969000011204034560000000000110744452510864527180000112040345610407927811106071152109041089540101120403456111748795010942696911081546461000011189616640000000000000000000010887920350000112040345600000000000000000000109891275800001120403456000000000000000000001094642575401111204034560000000000000000000010751277260000111634022400000000000000000000108051692300001119354880000000000000000000001075642243000011141120000000000000000000000010739911230000111935488000000000000000000000106832449800001120403456000000000000000000001068338890401211204034560000000000000000000010800360664013)))
 (.node 2 (.node 1 (.leaf 11204034560000000000000000000010924846230000112040345600000000000000000000105237143540141120403456000000000010930615220000000000000011204034561050757273000000000000000000004015112040345610622690270000000000000000000040161120403456000000000000000000001040452637000011204034560000000000000000000000000000000000112040345600000000000000000000000000000000001120403456000000000000000000000000000000000011204034560000000000000000000000000000000000112040345600000000001085650502105758427300001120403456111836547710518173581066784695000011204034561057643246111142020110577692490000112040345610669200741094922220000000000000001120403456110083359300000000001052496467000011204034561080091187111174331910412447130000)
 (.leaf 11204034561090630860110853829400000000000000112040345610665655291112251014105448199500001120403456000000000000000000000000000000000011204034560000000000000000000000000000000000112040345600000000000000000000000000000000001120403456000000000000000000000000000000000011204034560000000000102589320400000000000000112040345600000000001085369064104156824500001120403456000000000010735203651042629480000011204034560000000000000000000000000000000000112040345600000000000000000000000000000000001120403456000000000000000000000000000000000011204034560000000000000000000000000000000000112040345600000000000000000000000000000000001120403456000000000000000000000000000000000011204034560000000000000000000000000000000000))
 (.node 1 (.leaf 11204034560000000000106911718400000000000000108632473600000000000000000000000000000000001120403456000000000010517670261040495301000011204034560000000000108796722510652913160000112040345600000000001108796192109062615940171120010240000000000000000000001039051339000011204034560000000000000000000010319593160000112040345600000000000000000000104487119800001120403456105394541400000000001032696923000011204034560000000000111708966710336814080000112040345600000000001117097322000000000000001120403456000000000011170860241036528868000011204034560000000000111178691410670602990000112040345600000000000000000000108723342300001120403456000000000011065635111093422226000011204034560000000000111625459510911192170000)
 (.leaf 11204034561110288993110935917210834776550000112040345600000000000000000000109892158200001120403456000000000000000000001101303012000011204034560000000000000000000010893915560000112040345600000000001057649118108301208400001120403456000000000000000000001095687205000011204034560000000000000000000010818364450000111856844800000000000000000000106595959700001108344832000000000000000000001040492207000011083448320000000000104199262010165900010000110362624000000000000000000000107270424500001086324736000000000000000000001043777431000011204034560000000000000000000010526203030000112040345600000000000000000000105629771300001120403456000000000010897581931035375027000011204034560000000000000000000010682600140000)))))
 (.node 8 (.node 4 (.node 2 (.node 1 (.leaf 11204034560000000000000000000010669498540000112040345600000000000000000000000000000000001120403456000000000000000000000000000000000011204034560000000000000000000000000000000000112040345600000000000000000000105496067900001120403456107954176611080811411086580613000011204034561103076076109580575010760730710000112040345600000000000000000000000000000000001120403456108704253010955784190000000000000011204034561091314365110929602200000000000000112040345610779436231109111184104770371500001120403456000000000000000000000000000000000011204034560000000000000000000010313427450000112040345600000000000000000000000000000000001120403456000000000000000000000000000000000011204034560000000000000000000000000000000000)
 (.leaf 11204034560000000000000000000000000000000000112040345600000000001030268702000000000000001120403456000000000010497134951079111437000011204034560000000000000000000010505371280000112040345600000000000000000000000000000000001120403456000000000000000000000000000000000011204034560000000000000000000010518091580000112040345600000000000000000000000000000000001096810496000000000010876874651028066915000011204034561093401937110855583210612432060000112040345600000000000000000000000000000000001120403456000000000010574947681025097031000011200102400000000000104299254310682358330000112040345600000000000000000000105116605900001120403456000000000000000000001067873924000011204034560000000000000000000000000000000000))
 (.node 1 (.leaf 11204034560000000000000000000010410870760000112040345600000000001065453040101261402600001120403456000000000011147900351047502348000011204034560000000000110805629000000000000000112040345600000000001107874388107311191500001120403456000000000011170776221045054910000011204034560000000000111017740210543115720000112040345600000000001084558724108906663600001120403456000000000000000000001084829725000011204034561025045216105717264510802457914018112040345600000000001038429140109581672040191120403456000000000011054621921094151072000011204034560000000000110554502910909950594020112040345600000000001116997131106671167000001120010240111755564010955345891052165120000011099176961107886445108395537410430870890000)
 (.leaf 11204034560000000000000000000010941347800000112040345600000000000000000000108948616140211120403456000000000000000000001090369616000011204034560000000000000000000010829381390000112040345610748398341058736282108036907600001120403456000000000000000000001090992715000011204034560000000000000000000010849849630000112040345600000000000000000000106979652900001120403456109336902110974066111075596540402211204034561030009125106476601310310036400000111607808000000000000000000000107509910100001120403456000000000000000000001084481870000011204034560000000000000000000010840884520000112040345600000000000000000000108548685800001120403456000000000000000000001033025324000011204034560000000000000000000010618188260000)))
 (.node 2 (.node 1 (.leaf 11204034561107426385104424076710672146340000112040345600000000000000000000104249087600001120403456109673704710458715131058502147000011204034560000000000000000000010778215600000112040345600000000000000000000000000000000001120403456000000000000000000000000000000000011204034561052050461000000000000000000000000112040345600000000000000000000000000000000001120403456000000000000000000000000000000000011204034560000000000000000000000000000004023112040345600000000000000000000000000000000001120403456000000000010250073671072647271000011204034560000000000000000000010438680270000112040345600000000001102896221107129577600001120403456110741684100000000000000000000000011204034561112123382102438996510244135680000)
 (.leaf 11204034561100152920108536738600000000000000112040345600000000000000000000104608890100001120403456000000000000000000001019049765000011204034560000000000000000000000000000000000112040345600000000001061296485000000000000001120403456109023619910769596940000000000000011204034560000000000106367381710310797990000112040345600000000001065355733000000000000001120403456105101517210744875710000000000000011204034560000000000106612496810613551380000112040345600000000000000000000000000000000001120403456000000000010529280100000000000000011204034560000000000000000000000000000000000112040345600000000000000000000000000000000001120403456000000000000000000000000000000000011204034560000000000000000000000000000000000))
 (.node 1 (.leaf 11204034560000000000000000000000000000000000112040345600000000000000000000104723257400001120403456000000000000000000000000000000000010905190400000000000000000000000000000000000112040345600000000000000000000101764563100001120403456104181786900000000000000000000000011204034561060501782103021501510108159600000111673344010622765431100901620106649817900001120403456000000000000000000000000000000000011204034560000000000000000000010408798460000112040345600000000000000000000104305570600001120403456000000000000000000000000000000000011204034560000000000110972093100000000000000112040345600000000001107929596103172383500001120403456000000000011083975231058881478000011204034561049010094111706970510019809560000)
 (.leaf 11204034560000000000000000000010822719270000112040345600000000001066977251109055170900001120403456000000000000000000001091076785402411204034560000000000109471103710928386004025112040345600000000001107745204109162176740261120403456105984716911169839051053657372402711204034561102922327111456522100000000000000112040345611174652511099117468106897444200001112014848111073691410836146291043020110000011204034560000000000000000000010935586344028112040345600000000000000000000106804120600001120403456000000000010308324161088636790402911204034560000000000000000000010797999070000111961702411019437001098880490106725319000001120403456105793189810940130001049501765403011051991040000000000000000000000000000000000))))
 (.node 4 (.node 2 (.node 1 (.leaf 11204034560000000000000000000000000000004031111607808000000000000000000000107702636300001120403456000000000000000000001081274806403211204034560000000000000000000010898459784033111712665600000000000000000000106537672600001120403456000000000000000000001084200193000011204034560000000000000000000010735787930000112040345600000000000000000000103600666600001120403456000000000000000000000000000000000011204034560000000000000000000000000000000000112040345600000000000000000000106630058800001120403456000000000000000000001046961456000011204034560000000000000000000000000000000000112040345600000000000000000000000000000000001120403456000000000000000000001066353454000011204034560000000000000000000000000000000000)
 (.leaf 11204034560000000000000000000010354554350000112040345600000000000000000000108124663300001120403456000000000000000000001076710567000011204034560000000000000000000000000000000000112040345600000000001032496716106971551100001120403456000000000011029040861066550886000011204034560000000000000000000000000000000000112040345611148581591026644823104108481600001120403456111462832210314766611043124095000011204034561110958336108258236800000000000000112040345611114097651079787494000000000000001120403456000000000000000000000000000000000011204034560000000000000000000000000000000000112040345600000000000000000000106262408700001120403456000000000000000000000000000000000011204034560000000000000000000000000000000000))
 (.node 1 (.leaf 11204034560000000000105261259810437425170000112040345600000000001093736910000000000000001120403456000000000010927669770000000000000011204034561024357216108356027010401024090000112040345600000000001079743454102895529400001120403456000000000010806360011039287803000011204034560000000000108331846910452852260000112040345600000000001087499770105974934500001120403456000000000000000000000000000000000011204034560000000000000000000000000000000000112040345600000000000000000000000000000000001120403456000000000000000000001061834305000011171266560000000000000000000009483225880000112040345600000000000000000000000000000000001120403456000000000010490457621043105211000011204034560000000000103210748510572556710000)
 (.leaf 11163402241015099414102578583010777669774034111358771200000000001094774581107147935300001118568448000000000010744749881079309858000011204034560000000000000000000010601587980000112040345600000000000000000000106783230200001120403456000000000000000000001046953252000011204034561068446456110513183810566056730000112040345600000000001112679829108268745100001120403456000000000010927941351075608621403511204034560000000000107449008810742777514036112040345600000000000000000000108805703000001120403456000000000010431468931092192700403711204034560000000000109224174610899700734038112040345600000000001105593788108936595540391120403456000000000011076006311092584506404011204034560000000000111703490610610833770000)))
 (.node 2 (.node 1 (.leaf 11204034561108528937111121292310666008860000112040345611185118221093174559105624661700001120403456000000000010724650781089269224404111204034560000000000106966663810855425710000112040345600000000001106133333109541313500001120403456000000000000000000001085476143000011104419840000000000109437780010536253380000112040345600000000001069212815104217221240421109917696000000000010334496621019492279000011156848640000000000000000000010859789790000111568486400000000000000000000099270685200001120403456000000000000000000001091289701000011160780800000000000000000000010718642090000111673344000000000000000000000106628428800001120010240000000000000000000001075558387000011204034560000000000000000000010561469770000)
 (.leaf 11204034560000000000000000000000000000000000112040345600000000000000000000107781319100001120403456000000000000000000001080604994000011204034560000000000000000000010722749480000112040345600000000001088730379105336121800001120403456000000000010836376551025165910000011204034560000000000000000000010262755020000112040345600000000000000000000000000000000001120403456105949548500000000000000000000000011204034560000000000000000000010672129390000112040345600000000000000000000000000000000001120403456000000000000000000001067277446000011204034561065210643109436490210690334620000112040345610156808451098500381108231287840431120403456111098182310906415141067734619000011204034561116984333102838965410345723050000))
 (.node 1 (.leaf 11204034560000000000000000000010277674410000112040345600000000000000000000000000000000001120403456000000000000000000000000000000000011204034560979413068000000000000000000000000112040345600000000001043375063000000000040441120403456000000000010769517250000000000000011204034561025065081108363702600000000000000112040345600000000001082599565106560381000001120403456106183934610596976161066419132000011204034560000000000104899878609140610350000112040345600000000001043838114000000000000001120403456000000000010472673770000000000000011204034560000000000098015180200000000000000112040345600000000000000000000103022704700001120403456000000000000000000001037714213000011204034560000000000000000000000000000000000)
 (.leaf 11204034560000000000000000000010585349550000112040345610588737550000000000105143845400001120403456000000000000000000001049563814000011204034561114225419110892194210519479580000112040345600000000000000000000000000000000001120403456000000000010920725050000000000000011204034560000000000000000000010310962494045112040345600000000000000000000105398228300001120403456000000000000000000001072006179000011204034560000000000000000000000000000000000112040345600000000000000000000103722433400001120403456000000000011077972391049951383404611204034560000000000111311986410591594524047112040345600000000001113271881108655583600001120403456000000000011080086321051482411000011204034560000000000110758810110786799224048)))))))
 (.node 32 (.node 16 (.node 8 (.node 4 (.node 2 (.node 1 (.leaf 11204034560000000000110469316610972002990000111896166411176309241092659918000000000000001116078080111487434610858182741026431112000011204034561025338616108005005710960318854049112040345600000000001025034211108912564000001120403456000000000010447306621081001961000011204034561029992482103680510510936930044050112040345600000000001031449818109311982540511120403456000000000011073433631090187816405211204034560000000000000000000010909347764053112040345600000000000000000000108040909700001120403456000000000010720364201051634032000011200102400000000000000000000010353762210000112040345600000000000000000000103794175400001120403456000000000000000000001067461088000011175198720000000000000000000010239832040000)
 (.leaf 11204034560000000000000000000010632626070000112040345600000000000000000000106516848540541120403456109697592910512871981082921281000011204034560000000000103711380610447803880000112040345600000000000000000000106850803740551120403456000000000000000000001076931145000011204034560000000000000000000010356645890000112040345600000000000000000000000000000000001120403456000000000000000000000000000000000011204034561058274187000000000000000000000000112040345600000000000000000000000000000000001120403456000000000000000000000000000000000011204034560000000000000000000010285232290000112040345600000000000000000000000000000000001120403456000000000000000000001087440213000011204034560000000000000000000010837065850000))
 (.node 1 (.leaf 11204034560000000000000000000010549057690000112040345600000000001079321926109155826240561120403456104553395500000000001067671820000011204034561108500042109226083010550708230000112040345600000000001064380137104051735500001120403456000000000000000000001049964978000011204034560000000000000000000000000000000000112040345600000000000000000000000000000000001120403456000000000000000000000000000000000011204034560000000000000000000000000000000000112040345600000000001094683145103948911700001120403456000000000010692463691065543466000011204034560000000000102511474110499280850000112040345600000000001066751597102292608500001120403456000000000010540957040000000000000011204034560000000000101672613310377377400000)
 (.leaf 11204034560000000000097843381510329937770000112040345600000000001043677053000000000000001120403456000000000000000000000000000000000011204034560000000000000000000010318640070000112001024000000000000000000000000000000000001120403456109642744811070660410000000000000011204034560000000000108105249600000000000000111935488000000000000000000000103728334800001120403456000000000000000000001082403246000011204034560000000000000000000010163002250000112040345600000000001107722056106222948940571120403456000000000011077396461078692774000011204034560000000000110442499310891657294058112040345600000000001107104209107183527940591120403456000000000011104934691095558772406011204034560000000000111072305510849263234061)))
 (.node 2 (.node 1 (.leaf 11204034560000000000111706181510527712980000112040345611176402331098858260000000000000001112014848111024115810878215551029074465000011204034560000000000107915037910970206910000112040345610458164161100007028108858964300001120403456109275990611075064431086168733000011204034560000000000109924591910940161060000112040345600000000001083478901109374090440621120403456000000000000000000001090443871000011099176960000000000000000000010738889450000110048051200000000000000000000105347218300001119354880000000000000000000001027501564000011171266560000000000000000000010233721220000112040345610502756660000000000000000000000001120403456000000000000000000001085333861000011204034560000000000000000000010574468810000)
 (.leaf 11204034560000000000000000000010607098190000112040345600000000000000000000000000000000001120403456000000000000000000000000000000000011204034560000000000000000000000000000000000112040345600000000000000000000108284408100001120403456000000000000000000000000000000000011204034560000000000000000000000000000000000112040345600000000000000000000000000000000001120403456000000000000000000001062209429000011204034560000000000000000000010474681590000112040345600000000000000000000107025134400001120403456000000000000000000001063383079000011204034560000000000000000000010842649430000112040345600000000000000000000108548158100001120403456000000000000000000001087581310000011204034560000000000000000000010706163350000))
 (.node 1 (.leaf 11204034560000000000000000000010831568910000112040345600000000000000000000107464091900001120403456000000000000000000001076774958406311204034560000000000000000000010645461494064112040345610677123020000000000107512755400001120403456000000000010905550060000000000000011204034560000000000000000000000000000000000112040345600000000000000000000000000000000001120403456000000000000000000000000000000000011204034560000000000000000000000000000000000112040345600000000000000000000000000000000001120403456000000000010360669081037347614000011204034561031381635107035869810418733904065112040345610832534021087820215000000000000001120403456000000000010966964110000000000000011204034560000000000106605030900000000000000)
 (.leaf 11204034560000000000000000000000000000000000112040345600000000000000000000000000000000001120403456000000000000000000000000000000000011204034560000000000000000000000000000000000112040345600000000000000000000104469521900001120403456000000000000000000000000000000000011204034560000000000000000000000000000000000112040345600000000000000000000000000000000001120403456000000000000000000000000000000000011204034560000000000107472538800000000000000112040345600000000001063876821103156377400001120403456000000000010742661120000000000000011204034561055600117000000000010682855510000112040345600000000000000000000108302620200001120403456000000000000000000001051352470000011204034560000000000000000000010585645860000))))
 (.node 4 (.node 2 (.node 1 (.leaf 11204034560000000000000000000010496354630000112040345600000000000000000000105868253200001120403456000000000011079497551066269573000011204034560000000000110674454810866668964066112040345600000000001103507279106594342840671120403456000000000011052212291078393918406811204034560000000000110690707710683171504069112040345600000000001110537064106270591640701120403456000000000011102601871088644328407111204034560000000000110464231010797467994072112040345600000000001109593896108860246940731120403456110797133811121653191062511689000011204034561111703649110866304910765383910000112040345611089747731085886222108818303440741120403456110862495810927898361090864731000011204034561114788605108204570710955681630000)
 (.leaf 11204034560000000000108816813310978760770000112040345610421839481059467769109571540740751120403456106880394511044592291088006262407611204034561099117976110705702310974411870000112040345600000000001095734342108494883900001116733440000000000010542030781074844141000011204034561033387385105220323410537622390000112040345600000000001025114741105515831140771111228416106022101510516395201047751045000011099176960000000000102500736710378310000000111856844800000000001082802150106420204340781120403456000000000000000000001025428073407911128012800000000000000000000010361187190000109681049600000000000000000000105887938700001110441984000000000000000000001084459976000010779361280000000000000000000000000000000000))
 (.node 1 (.leaf 11204034560000000000000000000010344362650000112040345600000000000000000000101105939300001120403456000000000000000000001066407299000011204034560000000000000000000010823285780000112040345600000000000000000000102533562700001120403456000000000000000000000000000000000011204034560000000000000000000000000000000000112040345600000000000000000000000000000000001120403456000000000000000000000000000000000011204034560000000000000000000000000000000000112040345600000000000000000000104134684300001120403456000000000000000000001032957619000011204034560000000000000000000010796463590000112040345600000000000000000000106722366900001120403456000000000000000000000000000000000011204034560000000000000000000010777995280000)
 (.leaf 11204034560000000000000000000010850976290000112040345600000000000000000000102731627500001120403456000000000000000000000000000000000011204034560000000000000000000010344130160000112040345600000000000000000000000000000000001120403456000000000000000000000000000000000011204034560000000000000000000000000000000000112040345600000000000000000000000000000000001120403456000000000000000000000000000000000011204034560000000000000000000000000000000000112040345600000000000000000000000000000000001120403456104119194500000000000000000000000011204034560000000000000000000000000000000000112040345600000000001068089580102683551040801120403456102879472310913030601084563872000011204034560000000000106571812000000000000000)))
 (.node 2 (.node 1 (.leaf 11204034560000000000000000000000000000000000112040345600000000001025168428000000000000001120403456000000000010250610540000000000000011204034560000000000000000000000000000000000112040345600000000000000000000000000000000001120403456000000000000000000000000000000000011204034561050851964106806693100000000004081112040345600000000000000000000102461697800001120403456000000000000000000001070611956000011204034560000000000000000000010822277294082112040345600000000000000000000107176930540831120403456000000000000000000001075839822000011204034560000000000000000000010483809590000112040345600000000001107268678105298268800001120403456000000000011037093401076180892408411204034560000000000111429411110842813850000)
 (.leaf 11204034560000000000111681289610770253110000112040345600000000001112291331108778717340851120403456000000000011161875251067602539408611204034560000000000109714132210864306014087112040345600000000001091765168109516099540881120403456000000000010912139311076785468408911204034560000000000111287701310809407970000112040345600000000001117105986000000000000001120403456111103698910827576901099062924000011204034561100689632108866746410887981240000112040345610684119121059523133109649771740901120403456110830983210995243161093155578409111204034561108612073108363220310867428844092112040345600000000001099948936109016984240931120403456000000000010996397111091674076000011204034560000000000110514132710842540140000))
 (.node 1 (.leaf 11104419840000000000105649149110769705660000112040345600000000000000000000107772927340941120403456000000000000000000001039035838409511083448320000000000000000000010444351370000111896166400000000000000000000108425358900001096810496000000000000000000001029873225000011120148480000000000000000000000000000000000110362624000000000000000000000105327963800001109917696000000000000000000001021868302000011163402240000000000000000000010635383560000111607808000000000000000000000106227218400001119617024000000000000000000001050920567000011204034560000000000000000000010573348670000112040345600000000000000000000105227777000001120403456000000000000000000001033991543409611204034560000000000000000000010243635320000)
 (.leaf 11204034560000000000000000000010570570090000112040345600000000000000000000000000000000001120403456000000000000000000000000000000000011204034560000000000000000000000000000004097112040345600000000000000000000000000000000001120403456000000000000000000000000000000000011204034560000000000000000000000000000000000112040345600000000000000000000000000000000001120403456000000000000000000000000000000000011204034560000000000000000000010448159170000112040345600000000000000000000107498472800001120403456000000000000000000001064513528000011204034560000000000000000000010737565894098112040345600000000000000000000108284590600001120403456000000000000000000000000000000000011204034560000000000000000000010781140110000)))))
 (.node 8 (.node 4 (.node 2 (.node 1 (.leaf 11204034560000000000000000000010708265754099112040345600000000000000000000102806664600001120403456000000000000000000000000000000000011204034560000000000000000000010616090680000112040345610604902560000000000000000000000001120403456000000000000000000001012591819000011204034560000000000107062461700000000000000112040345609107751960000000000000000000000001120403456000000000000000000000000000000000011204034560000000000102535633310554166160000112040345600000000000000000000000000000041001120403456000000000010459721761015269210000011204034561070766636108510817810489239320000112040345600000000001051075805101102093300001120403456106130267610790375520000000000000011204034560000000000106732118300000000000000)
 (.leaf 11204034560000000000000000000000000000000000112040345600000000001016779820000000000000001120403456111293427700000000001024732176410111204034561111129861110046483600000000000000112040345610795018160000000000000000000000001120403456000000000011000775440000000000000011204034560000000000000000000000000000000000112040345600000000001055790203000000000000001120403456000000000010599425641026357057000011171266560000000000108355628610484439570000112040345600000000000000000000107809261341021120403456000000000000000000001039028648000011204034561057301025000000000010609850160000112040345600000000000000000000105228428600001120403456000000000010685618591044265411000011204034561047245164110786961710716801480000))
 (.node 1 (.leaf 11204034561058943749110783323210649867004103112040345610610552291107739751107248470441041120403456000000000011080006371057404680000011204034560000000000110263607000000000004105112040345600000000001116404764108149576000001120403456000000000010939303721083286619410611204034560000000000000000000010916745024107112040345600000000001106385725107481588441081120403456000000000011131017491090807654410911204034560000000000111685266310773263930000112040345610598630901076722716110267863300001120403456111720861010763292901083221504411011204034561100602359108698554910826029964111112040345610225248761094427817109382124841121120403456000000000010676315621077216654000011204034560000000000107376279610680128630000)
 (.leaf 11204034560000000000106838905310819377250000109366476800000000000000000000106081802300001120403456000000000000000000001074746368411311099176960000000000000000000000000000000000111935488000000000000000000000103665905600001120403456000000000000000000001059983122000011204034560000000000000000000010829464030000112040345600000000000000000000108942326941141120403456105183386711073222871074733798000011204034560000000000000000000010667714950000112040345600000000001074519029101111723500001120403456000000000000000000001062308692000011204034560000000000000000000000000000000000112040345600000000000000000000000000000000001120403456110016223800000000001057106745000011204034560000000000000000000010623301240000)))
 (.node 2 (.node 1 (.leaf 11204034560000000000000000000000000000000000112040345600000000000000000000000000000000001120403456000000000000000000000000000000000011204034560000000000000000000000000000000000112040345600000000000000000000000000000000001120403456000000000000000000001006665967000011204034560000000000000000000000000000000000112040345600000000000000000000103402698000001120403456000000000000000000001081275566000011204034560000000000000000000010602257560000112040345600000000000000000000104559295200001120403456000000000000000000001080176181000011204034560000000000000000000010413434660000112040345600000000000000000000109080191100001120403456000000000000000000001065833555411511204034560000000000000000000010381468564116)
 (.leaf 11204034560000000000000000000010216438970000112040345600000000000000000000104875371800001120403456000000000000000000001033743169000011204034560000000000000000000010584517740000112040345610352673731075251354100705530300001120403456102497032310635916080000000000000011204034560000000000000000000000000000000000112040345600000000001025436864000000000041171120403456000000000000000000000000000000000011204034560000000000104652246900000000000000112040345600000000000000000000104312669100001120403456000000000010773287931016683582000011204034560000000000104777069400000000000000112040345600000000001081425369000000000000001120403456101549186700000000000000000000000011204034561056504543000000000000000000000000))
 (.node 1 (.leaf 11204034560000000000109547953800000000000000112040345600000000001034174438000000000000001120403456110799311500000000000000000000000011171266560000000000107806615110460178160000112040345610790954921083100994101589946741181120403456000000000000000000000000000000000011196170240000000000108257880310592439990000112040345600000000000000000000107892004141191120403456106159698200000000001066263426000011204034561067603418000000000000000000000000112040345600000000000000000000106483009400001120403456000000000011080441001046625197000011204034561058900179110799736010386659820000112040345600000000001107838684107388301600001120403456000000000011079847511049209015000011204034560000000000111503959710700903594120)
 (.leaf 11204034560000000000111359219510694196810000112040345600000000001107671069108135319700001120403456000000000011160088741091293777412111204034560000000000111708138410473700670000112040345600000000001106880443109217117800001120403456000000000010310740081085021160412211204034561028034245105389102210953612430000112040345611138444981092231260109629266141231120403456111528783710911035161086193979412411204034560000000000109910341710590967080000110677196800000000000000000000106645078000001117126656000000000000000000001055797167412511167334400000000000000000000010496552974126111673344000000000000000000000101859844700001120403456000000000000000000001050086575000011204034560000000000000000000010751683730000))))
 (.node 4 (.node 2 (.node 1 (.leaf 11204034560000000000000000000010860211290000112040345600000000000000000000107038052000001120403456000000000000000000000000000000000011204034560000000000000000000000000000000000112040345600000000001087331159102088767300001120403456105268115000000000000000000000000011204034561107835608000000000000000000000000112040345600000000000000000000000000000000001120403456000000000000000000000000000000000011204034560000000000000000000010439571450000112040345600000000000000000000103650097800001120403456000000000000000000000000000000000011204034560000000000000000000000000000000000112040345600000000000000000000000000000000001120403456000000000000000000001052366428000011204034560000000000000000000010395519670000)
 (.leaf 11204034560000000000000000000000000000000000112040345600000000000000000000106559866900001120403456000000000000000000001040117884000011204034560000000000000000000000000000000000112040345600000000000000000000105387547000001120403456000000000000000000001069138786000011204034560000000000000000000010594108890000112040345600000000000000000000104296187141271120403456000000000000000000001076484966000011204034560000000000000000000010478957990000112040345600000000000000000000000000000000001120403456000000000000000000001036438748000011204034560000000000102514158500000000000000112040345600000000001060044905104001066600001120403456101681632710741277001019759349000011204034560000000000000000000010437553060000))
 (.node 1 (.leaf 11204034560000000000000000000000000000004128112040345600000000000000000000000000000000001120403456000000000000000000000000000000000011204034561078410445109515018100000000000000112040345600000000000000000000000000000000001120403456106093852600000000000000000000000011204034560000000000110315542900000000000000112040345600000000001095582299000000000000001120403456000000000000000000000000000000000011204034560000000000000000000000000000000000112040345600000000000000000000104780932700001120403456108137291110661241291084726689000011193548801106904437110913600910403582360000112040345600000000000000000000105685000000001120403456000000000009926340510000000000000011204034560000000000000000000010535655990000)
 (.leaf 11204034560000000000000000000010620903300000112040345600000000000000000000104791262100001120403456104178163000000000001055588344000011204034560000000000000000000010737548034129112040345600000000000000000000106006587841301120403456000000000011022581631024367095000011204034560000000000110782030810747021960000112040345600000000001107901311106200736700001120403456000000000011074966391084578279000011204034560000000000110649425310937388340000112040345600000000001105979874108826483641311120403456000000000011111163761090514130413211204034560000000000111694153010709144000000112040345600000000001107524924108572848900001120403456000000000000000000001094764836000011204034560000000000101683350710957114570000)))
 (.node 2 (.node 1 (.leaf 11204034560000000000106038044910918066450000112040345610651163721084123775109410191341331120403456108784201710963571971088990655000011204034561100638792110021611410932481160000112040345611008985621096678795109286441741341120403456105504948910705919021082699487000011204034561063746076101613557510802529614135112040345600000000001103053193108908202700001120403456000000000010773187261071556173000011204034560000000000000000000000000000000000112040345600000000000000000000103681455100001120403456000000000000000000001040294125413611204034560000000000000000000010403980610000112040345610252629180000000000106882762800001120403456000000000000000000001060721303000011204034560000000000000000000010648916150000)
 (.leaf 11204034560000000000000000000010799622950000112040345600000000000000000000000000000000001120403456000000000000000000000000000000000011204034560000000000000000000010738260350000112040345610278393611096025532000000000000001120403456000000000000000000000000000000000011204034560000000000000000000000000000000000112040345600000000000000000000000000000000001120403456000000000000000000001042656444000011204034560000000000000000000000000000000000112040345600000000000000000000000000000000001120403456000000000000000000001030641115000011204034560000000000000000000000000000004137112040345600000000000000000000102921483000001120403456000000000000000000001032833951000011204034560000000000000000000000000000000000))
 (.node 1 (.leaf 11204034560000000000000000000010294504960000112040345600000000000000000000107497797600001120403456000000000000000000001087589987000011204034560000000000000000000000000000000000112040345600000000000000000000107471451200001120403456000000000000000000001072813303000011204034560000000000000000000010517932780000112040345600000000000000000000000000000000001120403456000000000000000000000000000000000011204034560979413068000000000000000000000000112040345600000000001040563202107600734300001120403456000000000010301344840000000000000011204034560000000000000000000000000000000000112040345600000000000000000000000000000000001120403456000000000010300002661091831749413811204034560000000000103359730210563338780000)
 (.leaf 11204034560000000000108662903300000000000000112040345600000000000000000000000000000000001120403456000000000000000000000000000000000011204034560000000000000000000000000000000000112040345600000000000000000000000000000000001120403456000000000010995866530000000000000011204034560000000000110744211300000000000000112040345600000000001100350122000000000000001120403456000000000010496128320000000000000011099176960000000000000000000000000000000000110519910400000000001085987724103830711400001114898432107900246700000000001057809503000011175198720000000000110282586210640779724139112040345600000000000000000000106927713900001120403456000000000000000000001069599584000011204034560000000000000000000010797289210000))))))
 (.node 16 (.node 8 (.node 4 (.node 2 (.node 1 (.leaf 11204034561066872561110312276600000000004140112040345610645168721107810268106486382600001120403456000000000011079688131064432810000011204034560000000000110772792910527965124141112040345600000000001104154670108408189841421120403456000000000011131936831086244143000011204034560000000000110916135810756821210000109943193600000000001098991901000000000000001120403456000000000010631956661084691801000011204034561061710295109117922310751841124143112040345600000000001071507938107644883700001120403456102534908510964101501083966866414411204034561017719344108615130210884448924145112040345600000000001034308656109162529000001120403456000000000010657684521067224534000011204034560000000000105609890410723827060000)
 (.leaf 11204034560000000000104431458710789753020000111856844800000000001066456318106978826400001120403456000000000000000000000000000000000011200102401042032684000000000000000000000000109943193600000000000000000000104357903400001113587712000000000000000000000000000000000011204034560000000000000000000010191906790000112040345600000000000000000000102416303100001120403456000000000000000000001036917356414611075584000000000000000000000010596285920000112040345600000000000000000000102946095100001120403456000000000000000000001012355194000011204034560000000000000000000000000000000000112040345600000000000000000000000000000000001120403456000000000000000000001072932916000011204034560000000000000000000000000000000000))
 (.node 1 (.leaf 11204034560000000000000000000000000000000000112040345600000000000000000000104651556900001120403456000000000000000000000000000000000011204034560000000000000000000010363195500000112040345600000000000000000000000000000000001120403456106797687100000000000000000000000011204034560000000000000000000010514104390000112040345600000000000000000000000000000000001120403456000000000000000000000000000000000011204034560000000000000000000000000000000000112040345600000000000000000000000000000000001120403456000000000000000000000000000000000011204034560000000000000000000000000000000000112040345600000000000000000000108671237900001120403456000000000000000000001076607190000011204034560000000000000000000010634953230000)
 (.leaf 11204034560000000000000000000000000000000000112040345600000000000000000000000000000000001120403456000000000000000000001048958855000011204034560000000000000000000010399680880000112040345600000000000000000000109115352600001120403456000000000000000000001074663746000011204034560000000000000000000010719226880000112040345600000000000000000000108281052041471120403456104249761500000000000000000000000011204034560000000000000000000010267130010000112040345600000000000000000000103673710500001120403456000000000000000000000000000000414811204034560000000000000000000000000000000000112040345610451102301051465037104884862600001120403456000000000010251147411040772507000011204034560000000000000000000000000000000000)))
 (.node 2 (.node 1 (.leaf 11204034560000000000000000000010589546350000112040345600000000001059893910000000000000001120403456000000000000000000000000000000000011204034560000000000101683350700000000000000112040345600000000000000000000000000000000001120403456000000000011019766730000000000000011204034560000000000110535717700000000000000112040345600000000001093288958000000000000001120403456000000000000000000000000000000000011204034560000000000000000000000000000000000111568486400000000001074993404107343294300001106771968000000000000000000001042144201000011204034560000000000111109341210667419400000111896166400000000000000000000000000000000001120403456000000000000000000000000000000000011204034560000000000000000000010576396350000)
 (.leaf 11204034560000000000000000000010821824924149112040345600000000000000000000105773249700001120403456000000000000000000001088420370000011204034560000000000000000000010489497210000112040345600000000001108067510000000000000001120403456000000000011080675100000000000000011204034560000000000110801930210428246880000112040345600000000001107950725106375130500001120403456000000000011036838071054656129415011204034560000000000110780523510767383780000112040345600000000001099980027000000000041511120403456000000000011076350511082526634000011204034560000000000110327984310907469354152112040345600000000001106467199109189664700001120403456104486991311169911931064017429000011204034560000000000111708078110489015030000))
 (.node 1 (.leaf 11204034560000000000111710463610306765000000112040345610439493811117082472103788835500001120403456000000000011162640451087635481415311204034561047871558107930053510925194754154112040345600000000000000000000106163799100001120403456109216266210786516761074680907000011204034561070656997107455551910784819624155112040345610241626011075255968106963317441561120403456000000000010972856061081119708415711204034560000000000104942492710913088624158112040345600000000000000000000108384230000001120403456000000000000000000001024404666000011204034560000000000000000000010440023400000112040345600000000000000000000101695560100001120403456000000000000000000000000000000000011204034560000000000000000000010435333160000)
 (.leaf 11204034560000000000000000000010445783660000112040345600000000000000000000106803592141591120403456000000000000000000001049833368000011204034560000000000000000000000000000000000112040345610712030201113428695103307959300001120403456000000000000000000000000000000000011204034561070055324000000000010142952110000112040345600000000000000000000000000000000001120403456000000000000000000001042450376000011204034560000000000000000000010419670600000112040345600000000000000000000000000000000001120403456000000000000000000000000000000000011204034560000000000000000000010540105494160112040345600000000000000000000106227753600001120403456000000000000000000001032993845000011204034560000000000000000000010838039530000))))
 (.node 4 (.node 2 (.node 1 (.leaf 11204034560000000000000000000010562099420000112040345600000000000000000000107351834400001120403456000000000000000000000000000000000011204034560000000000000000000000000000000000112040345600000000000000000000102185057200001120403456000000000000000000001051093681000011204034560000000000102503421110358266420000112040345600000000001050035618107266986000001120403456000000000010607596141020752019000011204034560000000000000000000010341066550000112040345600000000000000000000000000000041611120403456000000000000000000001023759179000011204034560000000000000000000010613330410000112040345600000000001045408462105487821500001120403456000000000000000000000000000000000011204034560000000000000000000000000000000000)
 (.leaf 11204034560000000000103029554500000000000000112040345600000000000000000000000000000000001120403456000000000000000000000000000000000011204034561055625283000000000000000000000000112040345611073693890000000000000000000000001120403456000000000000000000000000000000000011204034561110651637101549133000000000004162112040345600000000000000000000000000000000001109131264000000000010984895811060012479000011204034560000000000109650808710651420480000111817523200000000001092557786106983260600001120403456000000000000000000001037965080000011204034560000000000000000000010782136430000112040345600000000000000000000106485002241631120403456000000000011014796481040164906416411204034560000000000110803948710538901440000))
 (.node 1 (.leaf 11204034560000000000110797683410281828414165112040345600000000001107861386103482532900001120403456000000000011079611321054040159000011204034560000000000000000000000000000000000112040345600000000001100665009105345155041661120403456000000000011003144181075203211000011204034560000000000107404255610976249850000112040345600000000001117075066105261446100001120403456000000000010421805251082713405000011204034560000000000000000000010824344460000111122841600000000001040422273108010831500001099431936000000000000000000001032703436000011104419840000000000000000000000000000000000111411200000000000000000000000104992769941671117126656000000000000000000001040862323000011204034560000000000000000000000000000000000)
 (.leaf 11204034560000000000000000000010474520024168112040345600000000000000000000102740941941691120403456000000000000000000001026307229000011204034560000000000000000000000000000004170112040345600000000000000000000105964912900001120403456000000000000000000001050050830417111204034560000000000000000000000000000000000112040345600000000000000000000101245941441721120403456000000000000000000001037809059000011204034560000000000000000000000000000000000112040345600000000000000000000000000000000001120403456000000000000000000001023438280000011204034560000000000000000000010286202280000112040345600000000000000000000000000000000001120403456000000000000000000000000000000000011204034560000000000000000000000000000000000)))
 (.node 2 (.node 1 (.leaf 11204034560000000000000000000010497184180000112040345600000000000000000000105804846700001120403456000000000000000000000000000000000011204034560000000000000000000000000000000000112040345600000000000000000000100976535900001120403456000000000000000000001076898762000011204034560000000000000000000010661392374173112040345600000000000000000000000000000000001120403456000000000000000000000000000000000011204034560000000000000000000000000000000000112040345600000000000000000000106271900300001120403456000000000000000000001071383833000011204034560000000000000000000000000000000000112040345600000000001035972955000000000000001120403456000000000009922045540000000000000011204034560000000000000000000010421704950000)
 (.leaf 11204034561058236673108596549410714187800000112040345600000000000000000000000000000000001120403456000000000000000000000000000000000011204034560000000000000000000000000000004174112040345600000000000000000000000000000000001120403456000000000000000000000000000000000011204034560000000000105184420200000000000000112040345600000000001057761526000000000000001120403456000000000010168335070000000000000011204034560000000000106323593100000000000000112040345600000000001052766949000000000000001120403456000000000000000000000000000000000011204034560000000000000000000000000000000000112040345600000000000000000000000000000000001120403456111648119000000000000000000000000011204034561054696496106179644600000000004175))
 (.node 1 (.leaf 11204034560000000000000000000000000000000000112040345600000000000000000000000000000000001120403456000000000000000000000000000000000011091312640000000000105282399110659337300000112040345600000000000000000000105910453641761120403456000000000000000000001033633224000011204034560000000000000000000010487616190000112040345610470272621108011752103508650241771120403456000000000011078765641033788894417811204034560000000000110615315110959589050000112040345600000000001117060779105699004100001120403456000000000000000000001095411108000011204034560000000000000000000010704262204179112040345600000000000000000000107822928900001116078080000000000000000000001017519512000011156848640000000000000000000010394588080000)
 (.leaf 11204034560000000000000000000010464469824180112040345600000000000000000000103356657141811120403456000000000000000000001048218074418211204034561073189745000000000000000000000000112040345600000000000000000000103935768000001120403456000000000000000000001032610244000011204034560000000000000000000010404604640000112040345600000000000000000000000000000000001120403456000000000000000000000000000000000011204034560000000000000000000000000000000000112040345600000000000000000000106532851600001120403456000000000000000000001064858987000011204034560000000000000000000000000000000000112040345600000000000000000000000000000000001120403456000000000000000000001076236988000011204034560000000000000000000010234651964183)))))
 (.node 8 (.node 4 (.node 2 (.node 1 (.leaf 11204034560000000000000000000010009349500000112040345600000000000000000000104878122200001120403456000000000000000000001065740483000011204034560000000000000000000010425808220000112040345600000000000000000000000000000000001120403456000000000000000000001031811003000011204034560000000000000000000010496329020000112040345600000000001045562812105604125500001120403456000000000000000000001030869593000011204034560000000000102836281010172477430000112040345600000000000000000000000000000041841120403456000000000000000000000000000000000011204034560000000000000000000000000000000000112040345600000000000000000000000000000000001120403456000000000010762420490000000000000011204034560000000000102503421100000000000000)
 (.leaf 11204034560000000000106863987300000000000000112040345600000000000976715828000000000000001120403456000000000000000000001053074210000011204034560000000000000000000000000000000000112040345600000000000000000000000000000000001120403456101656399810942286920000000000000011204034560000000000000000000000000000000000112040345600000000000000000000000000000000001120403456000000000000000000000000000000000011083448320000000000000000000000000000000000112040345600000000000000000000107898940700001119354880000000000000000000001069544571418511163402240000000000000000000010535675484186112040345600000000000000000000104630401241871120403456000000000000000000001074130491000011204034560000000000000000000010616267004188))
 (.node 1 (.leaf 11204034560000000000000000000000000000004189112040345600000000001108029027105656038400001120403456000000000011078586071058261128000011204034560000000000110792469410545922694190112040345600000000001107503114000000000000001120403456000000000011080646790000000000000011204034560000000000110807068200000000000000112040345600000000001108032042104148080200001120403456000000000010744267541057547917000011204034560000000000110032825900000000004191112040345600000000001106553392109375312600001120403456000000000011076928801083212342000011204034560000000000111567492910831487294192112040345600000000000000000000107394147200001120403456000000000000000000001065532805000011204034560000000000000000000010760667140000)
 (.leaf 11204034560000000000000000000010796767300000112040345600000000000000000000108057673400001112014848000000000000000000001067586496000011112284160000000000000000000010646438700000111201484800000000000000000000107056427200001112014848000000000000000000001084579397000011160780800000000000000000000010857228614193109943193600000000001087384637107182590200001108344832000000000000000000001062821453000010905190400000000000000000000010153029070000112040345600000000000000000000103840892700001120403456105092122000000000000000000000000011204034560000000000000000000000000000000000112040345600000000000000000000102520973441941120403456000000000000000000001019377750419511204034560000000000000000000010431543100000)))
 (.node 2 (.node 1 (.leaf 11204034560000000000000000000000000000004196112040345600000000000000000000000000000041971120403456000000000000000000001052761926000011204034560000000000000000000010349129340000112040345600000000000000000000104193128900001120403456000000000000000000001031202919000011204034561032861252000000000000000000000000112040345600000000000000000000104409279000001120403456000000000000000000001066764296000011204034560000000000000000000000000000000000112040345600000000000000000000000000000000001120403456000000000000000000000000000000000011204034560000000000000000000010599380320000112040345600000000000000000000105311120000001120403456000000000000000000001054073563000011204034560000000000000000000000000000000000)
 (.leaf 11204034560000000000000000000010641339830000112040345600000000000000000000000000000000001120403456000000000000000000000000000000000011204034560000000000000000000000000000000000112040345600000000000000000000000000000000001120403456000000000000000000001048541124000011204034560000000000000000000000000000000000112040345600000000000000000000000000000000001120403456000000000000000000001042105098000011204034560000000000000000000000000000000000112040345600000000000000000000103267520600001120403456000000000000000000001073669656000011204034560000000000000000000010807894250000112040345600000000000000000000106161391300001120403456000000000000000000001021177046000011204034560000000000000000000000000000000000))
 (.node 1 (.leaf 11204034560000000000000000000010330079590000112040345600000000000000000000000000000000001120403456108261897010418986680000000000419811204034561093826442000000000000000000000000112040345600000000000000000000106771062700001120403456000000000000000000000000000000000011204034560000000000000000000000000000000000112040345600000000000980151802000000000000001120403456000000000000000000000000000000000011204034561036072142108027529110494528540000112040345600000000000000000000106274066841991120403456000000000010516697191034477160000011204034560000000000101499472400000000000000112040345600000000000000000000000000000000001120403456000000000000000000001048228173000011204034560000000000000000000000000000000000)
 (.leaf 11204034560000000000000000000000000000000000112040345600000000000000000000000000000000001116340224000000000000000000000000000000000011036262400000000000000000000010398839454200112040345600000000000000000000105853074042011120403456000000000000000000001044094972420211204034561064742894000000000010744146644203112040345600000000000000000000101628880000001120403456000000000011080150811058026102000011204034560000000000110799951010596830210000112040345600000000001107747327107094273842041120403456000000000011079994311041450353420511204034560000000000110795276910605094930000112040345600000000001112847444106864005800001120403456000000000011048699041082467414420611204034560000000000110331156210992359494207))))
 (.node 4 (.node 2 (.node 1 (.leaf 11204034560000000000109621951910949513444208112040345600000000001092147898109715263442091120403456000000000011017744021082837956421011204034560000000000000000000010743025874211112040345600000000001109150977105851636800001120403456000000000011160706741059016645000011204034560000000000102150428410926697094212112040345600000000000000000000107743322200001116078080000000000000000000001070811810421311083448320000000000102508789810538852340000112040345600000000000000000000102437977900001120403456000000000000000000001041815955000011204034560000000000000000000010331108614214112040345600000000000000000000102767667342151120403456000000000000000000000000000000421611204034560000000000000000000010251516224217)
 (.leaf 11204034560000000000000000000000000000004218112040345600000000000000000000106750526500001120403456000000000000000000001056428984000011204034560000000000000000000010469347780000112040345600000000000000000000000000000000001120403456000000000000000000000000000000000011204034560000000000000000000000000000000000112040345600000000000000000000102408920400001120403456105891103300000000001040976156000011204034560000000000000000000000000000000000112040345600000000000000000000000000000000001120403456000000000000000000000000000000000011204034560000000000000000000010530346840000112040345600000000000000000000107677049200001120403456000000000000000000000000000000000011204034560000000000000000000010663259910000))
 (.node 1 (.leaf 11204034560000000000000000000000000000000000112040345600000000000000000000106897292300001120403456000000000000000000001049082791000011204034560000000000000000000010706355924219112040345600000000000000000000105329762400001120403456000000000000000000000000000000000011204034560000000000000000000000000000000000112040345600000000001073611801104839842900001120403456000000000010703050110000000000000011204034560000000000000000000010296712670000112040345610982654651029275491000000000042201120403456000000000000000000000978680807000011204034560000000000000000000010345671980000112040345600000000000000000000102423889800001120403456000000000000000000001073756819000011204034560000000000097843381500000000000000)
 (.leaf 11204034560000000000000000000000000000000000112040345600000000000000000000000000000000001120403456000000000000000000000000000000000011204034561043733022000000000010308481710000112040345600000000000000000000000000000000001120403456000000000000000000000000000000000011204034560000000000000000000000000000000000112040345611190878611031892736104371066400001120403456000000000000000000000000000000000011204034560000000000000000000000000000000000111961702400000000000000000000106891219400001120403456000000000000000000001031897038000011204034560000000000104623390110299968844221112040345600000000001107538503101616386842221120403456000000000011043706241071091010422311204034560000000000110727858710497771230000)))
 (.node 2 (.node 1 (.leaf 11204034560000000000110801565810535549530000112040345600000000001108051388102427959900001120403456000000000011056368840000000000000011204034560000000000110807545310335580740000112040345600000000001107943463106863948800001120403456000000000010919728910000000000000011204034560000000000111417522910516242034224112040345600000000001104137264109999001842251120403456000000000011054173651096883145000011204034560000000000111088388010775670084226112040345600000000001114847209102663380100001120403456000000000011170933511048115707000011204034560000000000000000000010849638234227112040345600000000000000000000108272889400001110441984000000000000000000001064890834000011204034560000000000104357639010728111934228)
 (.leaf 11141120000000000000000000000010269011240000111935488010250245470000000000000000000000001120403456000000000000000000000000000000000011204034560000000000000000000010611950804229112040345600000000000000000000000000000042301120403456000000000000000000001020162447423111204034560000000000000000000000000000004232112040345600000000000000000000103147975700001120403456000000000000000000001043884628000011204034560000000000000000000010176323710000112040345600000000000000000000106919522300001120403456000000000000000000001033141574000011204034560000000000000000000010143841500000112040345600000000000000000000000000000000001120403456000000000000000000000000000000000011204034560000000000000000000000000000000000))
 (.node 1 (.leaf 11204034560000000000000000000000000000000000112040345600000000000000000000000000000000001120403456000000000000000000000000000000000011204034560000000000000000000000000000000000112040345600000000000000000000106687888200001120403456000000000000000000000000000000000011204034560000000000000000000000000000000000112040345600000000000000000000000000000000001120403456000000000000000000001044609250000011204034560000000000000000000000000000000000112040345600000000000000000000104964668100001120403456000000000000000000000000000000000011204034560000000000109112522210531170360000112040345600000000000000000000105371998600001120403456000000000000000000001027777690000011204034561060020863105202539610413254814233)
 (.leaf 11204034560000000000000000000010782133330000112040345600000000000000000000106926681700001120403456104132817610464083841060201605423411204034560000000000000000000000000000000000112040345600000000000000000000000000000000001120403456000000000000000000000000000000000011204034560000000000000000000000000000000000112040345611034334890000000000000000000000001120403456000000000000000000001058044012000011204034560000000000106117401100000000000000112040345600000000000000000000000000000000001120403456000000000000000000000000000000000011204034560000000000000000000000000000000000112040345600000000000000000000000000000000001120403456108804562500000000000000000000000011204034561119280850102473893210344419920000))))))))
 (.node 64 (.node 32 (.node 16 (.node 8 (.node 4 (.node 2 (.node 1 (.leaf 11204034560000000000000000000000000000000000110991769600000000001082833817000000000042351118568448000000000000000000001060486437423611067719680000000000107538095810362615700000112040345600000000001087530389106927751800001120403456000000000010994972621039151499000011204034560000000000000000000000000000000000112040345600000000001097638661000000000000001120403456000000000011080060371059536155000011204034560000000000110552138410657958734237112040345600000000000000000000109986134142381120403456000000000000000000001089610017423911204034560000000000000000000010598195914240112040345600000000000000000000105704019642411120403456000000000000000000001065393088424211204034560000000000000000000010651075174243)
 (.leaf 11204034560000000000106185013310840417230000112040345600000000001116854105106996081600001120403456000000000011165884611080119694424411204034560000000000110803550210692360304245112040345600000000000000000000109306155242461120403456000000000000000000001078639345424711004805120000000000000000000010389748360000109943193600000000000000000000000000000000001117913088000000000000000000001051278501000011204034560000000000000000000010329782050000112040345600000000001098208248107411367042481120403456000000000010720917851076392590424911200102400000000000106014556810917066484250109943193600000000000000000000000000000000001107558400000000000000000000001029203839425111204034560000000000000000000010324258004252))
 (.node 1 (.leaf 11204034560000000000000000000010332015934253112040345600000000000000000000106775691800001120403456000000000000000000001024375112000011204034560000000000000000000000000000004254112040345600000000000000000000000000000000001120403456000000000000000000000000000000425511204034560000000000000000000000000000004256112040345600000000000000000000000000000042571120403456000000000000000000001026206371000011204034561023701428000000000010483633964258112040345600000000000000000000000000000000001120403456000000000000000000001078604868000011204034560000000000000000000000000000000000112040345600000000000000000000107359915300001120403456000000000000000000001034539992000011204034560000000000000000000000000000000000)
 (.leaf 11204034560000000000000000000000000000000000112040345600000000000000000000000000000000001120403456000000000000000000000000000000000011204034560000000000000000000010258896480000112040345600000000000000000000000000000000001120403456000000000000000000000000000000000011204034560000000000000000000010680956900000112040345600000000000000000000000000000000001120403456000000000010385096701036142698000011204034561074116812104953565710833428910000112040345600000000000000000000105986511800001120403456000000000000000000001051403372000011204034561079789943105834201710474852784259112040345600000000001050002063000000000000001120403456000000000000000000001028298609000011204034560000000000000000000000000000000000)))
 (.node 2 (.node 1 (.leaf 11204034560000000000000000000010319051370000112040345600000000000000000000105897374900001120403456000000000000000000001017959497000011204034560000000000000000000000000000000000112040345600000000000000000000000000000000001120403456000000000000000000000000000000000011204034560000000000000000000000000000000000112040345600000000000000000000000000000000001120403456000000000000000000000000000000000011083448320000000000000000000010301274220000112040345610673970921092773059102609713500001120403456000000000010786638401024033761426011204034560000000000103667088810546043284261112040345600000000001086207505104188061442621120403456000000000010920562521048986281000011204034560000000000110799075410539608124263)
 (.leaf 11204034560000000000110740808710764151974264112040345600000000001110339119000000000042651120403456000000000010601170471065717479426611204034560000000000110614890410760147994267112040345600000000001108627214108167945042681120403456000000000011096759991078577328000011204034560000000000110024494910765742034269111817523200000000000000000000102543752400001117913088000000000000000000000000000000000011135877120000000000098015180210042673820000112040345600000000001100776682108255965242701118175232000000000010300271101072551967000011181752320000000000000000000010536438560000112040345600000000000000000000105450495942711120403456000000000000000000001021606566000011204034560000000000000000000000000000004272))
 (.node 1 (.leaf 11204034560000000000000000000010329471040000112040345600000000000000000000103670849800001120403456000000000000000000001044358322427311204034560000000000000000000000000000000000112040345600000000000000000000000000000000001120403456000000000000000000000000000000000011204034560000000000000000000000000000000000112040345600000000000000000000000000000000001120403456000000000000000000000000000000000011204034560000000000000000000010385855490000112040345600000000000000000000000000000000001120403456000000000000000000000000000000000011204034560000000000000000000000000000000000112040345610824866580000000000106461354600001120403456000000000000000000001030631598000011204034560000000000000000000000000000000000)
 (.leaf 11204034560000000000000000000000000000000000112040345600000000000000000000000000000000001120403456000000000000000000000000000000000011204034560000000000000000000010751204140000112040345600000000000000000000000000000000001120403456000000000000000000001059779566000011204034560000000000000000000010553910430000112040345600000000000000000000000000000000001120403456000000000000000000000000000000000011204034560000000000000000000000000000000000112040345600000000000000000000000000000000001120403456000000000000000000001029392261000011204034560000000000000000000010429859250000112040345600000000000000000000000000000000001120403456000000000000000000000000000000000011204034560000000000000000000000000000000000))))
 (.node 4 (.node 2 (.node 1 (.leaf 11204034560000000000000000000000000000000000112040345600000000000000000000000000000000001120403456000000000000000000000000000000000011204034560000000000000000000000000000000000112040345600000000000000000000000000000000001120403456000000000000000000001068920522427411204034561040869621000000000000000000000000112040345600000000000000000000000000000000001120403456000000000000000000001050130858000011204034560000000000000000000000000000000000112040345610679968351034993166105991890100001120403456000000000000000000000000000000000011204034560000000000000000000010358114210000112040345600000000000000000000104991561200001120403456110650992500000000000000000000000011204034561034092162000000000000000000000000)
 (.leaf 11204034560000000000000000000010092805720000112040345600000000000000000000106715833800001120403456000000000010995747001067103586000011204034560000000000000000000000000000000000112040345600000000000000000000000000000000001120403456000000000000000000001057469271000011204034560000000000000000000000000000000000112040345600000000000000000000000000000000001120403456000000000000000000000000000000000011204034560000000000110499630910498016184275112040345600000000001085829808106446378442761120403456000000000010864564370000000000000011204034560000000000110801749310583756330000112040345600000000001107992773105881318800001120403456000000000011017477161084790678427711204034560000000000110798194610660166584278))
 (.node 1 (.leaf 11204034560000000000000000000010738768754279112040345600000000001094809498108215002500001120403456000000000000000000001079992503000011204034560000000000000000000010844814324280111896166400000000001033463084106680121800001120403456000000000000000000000000000000000011193548800000000000000000000010267556080000111817523200000000001105132834106950905400001116733440000000000011035407291080142641000011171266560000000000000000000010324912190000112040345600000000000000000000000000000000001120403456000000000000000000001021084809000011204034560000000000000000000010297652840000112040345600000000000000000000000000000000001120403456000000000000000000001050428225428111204034560000000000000000000000000000000000)
 (.leaf 11204034560000000000000000000000000000000000112040345600000000000000000000000000000000001120403456000000000000000000000000000000000011204034560000000000000000000010495251654282112040345600000000000000000000104875364700001120403456000000000000000000001049138124000011204034560000000000000000000010364524790000112040345600000000000000000000000000000000001120403456000000000000000000000000000000000011204034560000000000000000000000000000000000112040345600000000000000000000000000000000001120403456000000000000000000000000000000000011204034560000000000000000000000000000000000112040345600000000000000000000107417468100001120403456000000000000000000001044345046000011204034560000000000000000000000000000000000)))
 (.node 2 (.node 1 (.leaf 11204034560000000000000000000000000000000000112040345600000000000000000000103750919700001120403456000000000000000000001032958672000011204034560000000000000000000010364451230000112040345600000000000000000000000000000000001120403456000000000000000000001032782281000011204034560000000000000000000000000000000000112040345600000000000000000000000000000000001120403456000000000000000000000000000000000011204034560000000000000000000010410305070000112040345600000000000000000000000000000000001120403456000000000000000000001033951764000011204034561061385673105944595810572568304283112040345600000000000000000000000000000000001120403456000000000000000000000000000000000011204034560000000000000000000000000000000000)
 (.leaf 11204034560000000000000000000000000000000000112040345600000000000000000000000000000000001120403456108711902610250610540000000000000011204034560000000000000000000000000000000000112040345600000000000000000000103576647400001120403456109568761410173166911024732641000011204034560000000000000000000000000000000000112040345600000000001025087898103397647700001120403456000000000000000000000000000000000011204034560000000000000000000000000000000000112040345600000000000000000000000000000000001120403456000000000000000000000000000000000011104419840000000000000000000000000000000000111122841600000000001085324814000000000000001120403456000000000011110414291063797002000011204034560000000000109965722310414543564284))
 (.node 1 (.leaf 11204034560000000000108656989310257056060000112040345600000000001084778506105313128500001120403456000000000011040501791064573698000011204034560000000000106322251000000000000000112040345610375831651085602896101027046000001120403456000000000010509348770000000000000011204034560000000000106817094910545812284285112040345600000000000000000000000000000000001120403456000000000000000000000000000000428611204034560000000000110792857410689500660000112040345600000000001108077104000000000000001120403456000000000011075864761026475674000011204034560000000000110700915610922135904287112040345600000000001112310730103461340542881120403456000000000010838215750000000000428911204034560000000000107791431810436488154290)
 (.leaf 11204034560000000000000000000010572378764291112040345600000000000000000000106302055642921120403456000000000010949925801088340422429311204034560000000000000000000010823815140000112040345600000000000000000000107917544900001113587712000000000000000000001048957637000011204034561047769754000000000010525625200000112040345600000000000000000000000000000042941120403456000000000010490457621053319089000011204034560000000000106727756310443253374295112040345600000000000000000000000000000000001120403456000000000000000000000000000000000011204034560000000000000000000000000000004296112040345600000000000000000000000000000000001120403456000000000000000000000000000000429711204034560000000000000000000000000000004298)))))
 (.node 8 (.node 4 (.node 2 (.node 1 (.leaf 11204034560000000000000000000010438406454299112040345600000000000000000000105439263800001120403456000000000000000000000000000000000011185684480000000000000000000010340190290000112040345600000000000000000000105093542500001120403456000000000000000000000000000000000011204034561098580398103499316610431467650000112040345600000000000000000000000000000000001120403456000000000000000000000000000000000011204034560000000000000000000000000000000000112040345600000000000000000000000000000000001120403456000000000000000000000000000000000011204034560000000000000000000000000000000000112040345600000000000000000000000000000000001120403456000000000000000000000000000000000011204034560000000000000000000000000000000000)
 (.leaf 11204034560000000000000000000000000000000000112040345600000000000000000000000000000000001120403456000000000000000000000000000000000011204034560000000000000000000000000000000000112040345600000000000000000000105049573500001120403456000000000000000000001034524222000011204034560000000000000000000010524259710000112040345600000000000000000000000000000000001120403456000000000000000000000000000000000011204034560000000000000000000000000000000000112040345600000000000000000000000000000000001120403456108654051010033848911032000866000011204034560000000000000000000000000000000000112040345600000000000000000000106006965500001120403456000000000000000000001066280604000011204034560000000000000000000010559943540000))
 (.node 1 (.leaf 11204034560000000000099220455400000000000000112040345600000000000000000000000000000000001120403456000000000000000000000000000000000011204034560000000000000000000000000000000000112040345600000000000000000000000000000000001086324736000000000010757676731050348572000011204034560000000000107378502500000000000000112040345600000000001061655518000000000000001120403456000000000010720498420000000000430011204034560000000000106788741400000000004301112040345600000000001070401480000000000000001120403456000000000000000000000000000000430211204034560000000000110757557010830782920000112040345600000000001108072360103007767800001120403456000000000010706715930000000000430311204034560000000000109144661000000000004304)
 (.leaf 11204034560000000000107444982310341408254305112040345600000000000000000000108365373143061120403456000000000000000000001081940813430711204034560000000000106229976310749908024308112040345610499675690000000000108977714743091120403456000000000000000000001086546837000011204034560000000000000000000010802836134310112040345610224980320000000000108394129943111120403456000000000000000000001079719154431211200102400000000000000000000010243997510000112040345600000000001095619209105810934300001120403456000000000011082261331045738088431311204034560000000000000000000009014536860000112040345600000000000000000000105013871000001109131264000000000010961469571073769121000011204034560000000000000000000010659906334314)))
 (.node 2 (.node 1 (.leaf 11204034560000000000104939137310775239850000112040345600000000001066218920096032977443151120403456000000000010644623460000000000000011204034560000000000105088790000000000000000112040345600000000001025034211105183023800001120403456000000000000000000001024304517431611204034560000000000000000000000000000000000112040345600000000000000000000000000000000001120403456000000000000000000000000000000431711196170240000000000000000000010796224184318111122841600000000000000000000105285697000001100480512000000000000000000000000000000000011204034560000000000000000000010342490370000112040345600000000000000000000101907581600001120403456000000000000000000000000000000000011204034560000000000000000000000000000000000)
 (.leaf 11204034560000000000000000000000000000000000112040345600000000000000000000108874353600001120403456000000000000000000000000000000000011204034560000000000100209640100000000000000112040345600000000000000000000000000000000001120403456000000000000000000000000000000000011204034560000000000000000000000000000000000112040345600000000000000000000000000000043191120403456000000000000000000000000000000000011204034560000000000000000000010256263060000112040345600000000000000000000000000000000001120403456000000000000000000000000000000000011204034560000000000000000000000000000000000112040345600000000000000000000102370118643201120403456110070813200000000000000000000000011204034560000000000000000000000000000000000))
 (.node 1 (.leaf 11204034560000000000000000000000000000000000112040345600000000000000000000105069268600001120403456000000000000000000001073285682000011204034560000000000000000000000000000000000112040345600000000000000000000105036702800001120403456000000000000000000001044207994000011204034560000000000000000000000000000000000112040345600000000000000000000000000000000001120403456000000000000000000001050546403000011204034560000000000000000000010454059120000112040345600000000000000000000000000000000001120403456000000000000000000001051609335000011204034560000000000000000000000000000000000112040345600000000000000000000000000000000001120403456000000000000000000001061243859000011204034560000000000000000000000000000000000)
 (.leaf 11204034560000000000000000000000000000000000111712665600000000000000000000104946030600001120403456000000000010758012271059002220432111204034560000000000105863226300000000000000112040345600000000001087613226102223763743221120403456000000000010723929361035606607432311204034560000000000101833674610422861390000112040345600000000000000000000000000000000001120403456000000000011079289411066584180000011204034560000000000110608158610892360544324112040345610431020641107884035107125835400001120403456000000000011079323481065178841432511204034560000000000110883755810555724544326112040345600000000001111354402105883005943271120403456000000000000000000001083729901432811204034561041046654000000000010838521730000))))
 (.node 4 (.node 2 (.node 1 (.leaf 11204034560000000000000000000010867278090000112040345600000000000000000000104690520900001120403456000000000011077733321077453343432911204034560000000000000000000010348406504330112040345600000000000000000000000000000000001120403456000000000000000000001045008696433111204034560000000000000000000010425896954332112040345600000000000000000000102181761543331120403456000000000010662843511009908703433411204034560000000000000000000010324624220000112040345600000000000000000000103004538800001120403456000000000000000000000000000000000011204034560000000000000000000000000000000000112040345600000000000000000000000000000000001120403456000000000000000000001038584795000011204034560000000000000000000000000000004335)
 (.leaf 11204034560000000000000000000010361593130000111607808000000000000000000000105853728143361117126656000000000000000000001060981479433711204034560000000000000000000010570039670000112040345600000000000000000000105746088043381120403456000000000000000000001035934742000011204034560000000000000000000000000000004339112040345600000000000000000000102978828943401120403456000000000000000000000000000000434111204034560000000000000000000000000000000000112040345600000000000000000000000000000000001120403456000000000000000000000000000000000011204034560000000000000000000010762577044342112040345600000000000994781535106781128543431120403456000000000000000000001049950648434411204034560000000000000000000000000000000000))
 (.node 1 (.leaf 11204034560000000000000000000000000000000000112040345600000000000000000000106245293700001120403456000000000000000000000000000000000011204034560000000000000000000010379806710000112040345600000000000000000000000000000000001120403456000000000000000000000000000000000011204034560000000000000000000010151934010000112040345600000000000000000000000000000000001120403456000000000000000000001028559152000011204034560000000000000000000010435894890000112040345600000000000000000000000000000000001120403456000000000000000000001038619389000011204034560000000000000000000000000000000000112040345600000000000000000000103263168000001120403456000000000000000000000000000000000011204034560000000000000000000000000000000000)
 (.leaf 11204034561074772411000000000010787520880000112040345600000000000000000000107494380300001120403456000000000000000000000000000000000011204034561016138259000000000000000000000000111935488000000000000000000000000000000000001119354880000000000000000000001069246076000011204034560000000000000000000000000000004345112040345600000000001084216469101917409200001120403456000000000000000000001024985266000011204034560000000000110804009000000000004346112040345600000000001107954159106585062300001120403456000000000011069952101067042535434711204034560000000000110783173810673780714348112040345600000000001108901469104138539300001120403456000000000011080267201068324044434911204034561069342326110785609110584285224350)))
 (.node 2 (.node 1 (.leaf 11204034560000000000110872153310833347654351112040345600000000001104667581105940941843521120403456000000000010986161441048906713435311204034560000000000108723930400000000004354112040345600000000001100618190108000095300001120403456000000000000000000001092142174000011204034561048578248000000000000000000000000112040345600000000001105259712106561797543551116733440000000000000000000001070021014000011204034560000000000000000000010222323210000112040345600000000000000000000101317789943561120403456000000000000000000001066688150000011204034560000000000102506105410075607374357112040345610595598920000000000107441145743581120403456000000000000000000001063767704435911204034560000000000000000000010763673640000)
 (.leaf 11204034560000000000000000000010571874924360112040345600000000000000000000105590152500001120403456000000000000000000001067599991000011204034560000000000000000000000000000000000112040345600000000000000000000000000000000001120403456000000000000000000000000000000000011204034560000000000000000000010659180824361111856844800000000000000000000106678646400001120403456000000000000000000001071578508000011204034560000000000000000000010577349950000112040345600000000000000000000104158158700001120403456000000000000000000001061390039000011204034560000000000000000000010269793350000111070412811092466361083282607104659527100001104554125000000000000000000000000000000000011204034560000000000000000000000000000000000))
 (.node 1 (.leaf 11204034560000000000000000000000000000000000112040345600000000000000000000000000000043621120403456000000000000000000000000000000000011204034560000000000000000000000000000000000112040345600000000000000000000102379626600001120403456000000000000000000000000000000000011204034560000000000000000000010597658984363112040345600000000000000000000103791677600001120403456000000000000000000000000000000000011204034560000000000000000000000000000000000112040345600000000000000000000107078093543641120403456000000000000000000000000000000000011204034560000000000000000000000000000000000112040345600000000000000000000000000000000001120403456106399689600000000000000000000000011204034560000000000000000000000000000000000)
 (.leaf 11204034560000000000000000000000000000000000112040345600000000000000000000106162948300001120403456000000000000000000001049076694000011204034560000000000000000000000000000000000112040345600000000000000000000000000000000001120403456000000000000000000000000000000000011204034560000000000000000000000000000000000112040345600000000000000000000103976094600001120403456000000000000000000000000000000000011204034560000000000000000000000000000000000112040345600000000001025061054102902553400001120403456000000000000000000000000000000000011204034560000000000000000000010461018960000112040345611046431431050314120106573485800001120403456000000000000000000001027646016000011204034560000000000000000000000000000000000))))))
 (.node 16 (.node 8 (.node 4 (.node 2 (.node 1 (.leaf 11204034560000000000107917554500000000004365112040345600000000001078097189102103138700001120403456000000000000000000001037861744000011204034560000000000000000000000000000000000112040345600000000001108006378105423273643661120403456000000000011077050171069188336436711204034561051647069110760299110821486824368112040345600000000001098955306102956455243691120403456000000000010842294711068015201437011204034560000000000108673619710872129834371112040345600000000000000000000107668625843721120403456000000000010498040921085377090437311196170240000000000109249329910795969044374111791308800000000000000000000107627711500001118568448000000000000000000001039011729000011204034560000000000000000000010756512080000)
 (.leaf 11204034560000000000000000000010160725430000112040345600000000000000000000102358501643751120403456000000000000000000000000000000000011204034560000000000000000000000000000004376112040345600000000000000000000000000000000001120403456000000000000000000000000000000000011148984320000000000000000000010799789010000112040345600000000000000000000103235262400001117256430000000000000000000000000000000000011204034560000000000000000000000000000000000112040345600000000000000000000000000000043771120403456000000000000000000000000000000000011204034561072725544000000000010615330400000112040345600000000000000000000103628447143781120403456000000000000000000000000000000000011204034560000000000000000000000000000000000))
 (.node 1 (.leaf 11204034560000000000000000000000000000000000112040345600000000000000000000000000000000001120403456000000000000000000000000000000000011204034560000000000000000000000000000000000112040345600000000000000000000104923713500001120403456106959839710149947241015026612000011204034560000000000000000000000000000000000112040345600000000000000000000000000000000001120403456000000000000000000000000000000000011204034560000000000000000000010398045060000112040345600000000000000000000103255761900001120403456000000000000000000001037804243000011204034560000000000000000000000000000000000112040345611017425590000000000000000000000001120403456109517030810189809911025792641000011204034560000000000000000000000000000000000)
 (.leaf 11204034561098006986110204530210684789850000112040345600000000000000000000000000000000001120403456000000000000000000000000000000000011204034560000000000000000000000000000000000111607808000000000000000000000000000000000001090519040000000000000000000000000000000000011204034560000000000109090837610347364000000112040345600000000000000000000000000000000001120403456000000000010753394340000000000437911204034560000000000108300473500000000000000112040345600000000000000000000000000000043801120403456000000000010595885651066243570438111204034560000000000107420697210246488074382112040345600000000001076494126000000000043831120403456000000000000000000000000000000438411204034561033575558000000000010448533770000)))
 (.node 2 (.node 1 (.leaf 11204034560000000000110802396810584065140000112040345600000000001107542567108453822900001120403456000000000011078588171073895275000011204034560000000000110645744810652789274385112040345600000000001091908089106061365943861120403456000000000010928811671057896683438711204034560000000000000000000010752736034388112040345600000000000000000000108087069643891120403456000000000011080190391059921220000011204034560000000000108964830210614755514390111411200000000000001100008024107391040543911110441984000000000000000000001069155282000011204034560000000000000000000010229953544392112040345600000000000000000000103273832543931120403456000000000000000000000000000000000011204034561064656173000000000000000000000000)
 (.leaf 11204034561048982210000000000000000000000000112040345600000000000000000000000000000043941120403456000000000000000000000000000000000011204034560000000000000000000000000000004395112040345600000000000000000000104368854200001109131264106027102800000000001071115381439611204034560000000000000000000010462142400000112040345600000000000000000000104167871900001120403456000000000000000000001055307521000011204034560000000000000000000000000000000000112040345600000000000000000000000000000000001120403456000000000000000000000000000000000011204034560000000000000000000000000000000000112040345600000000000000000000000000000000001120403456000000000000000000001060506650000011204034561064350391000000000000000000000000))
 (.node 1 (.leaf 11204034560000000000000000000010185939550000112040345600000000000000000000102636607100001120403456000000000000000000000000000000000011204034560000000000000000000010330011510000112040345600000000000000000000000000000000001120403456000000000000000000000000000000000011204034560000000000000000000000000000004397112040345600000000000000000000000000000000001120403456000000000000000000001070810717000011204034560000000000000000000010510382470000112040345600000000000000000000000000000000001120403456000000000000000000000000000000000011204034560000000000000000000000000000000000112040345600000000000000000000000000000000001120403456000000000000000000001034123296000011204034560000000000000000000000000000000000)
 (.leaf 11204034560000000000000000000000000000000000112040345600000000000000000000000000000000001120403456000000000000000000000000000000000011204034560000000000000000000010123258340000112040345600000000000000000000000000000000001120403456000000000000000000000000000000000011204034560000000000000000000000000000000000112040345600000000000000000000000000000000001120403456000000000000000000000000000000000011204034560000000000000000000000000000000000112040345600000000000000000000000000000000001120403456000000000000000000001035569564000011204034560000000000000000000010421568920000112040345600000000000000000000000000000000001120403456000000000000000000001059587472000011204034560000000000000000000000000000000000))))
 (.node 4 (.node 2 (.node 1 (.leaf 11204034560000000000000000000000000000000000112040345600000000000000000000000000000000001115684864000000000000000000000000000000000011051991040000000000106608805810590887310000112040345600000000001071380431000000000043981120403456000000000000000000001040406629000011204034560000000000000000000010259593224399112040345600000000000000000000000000000000001120403456000000000000000000000000000000000011204034560000000000000000000000000000004400112040345600000000000000000000000000000000001120403456000000000000000000001026121995440111204034560000000000107780191010290136700000112040345610456359611072880314000000000000001120403456000000000010934531650996039580440211204034560000000000109609819810449779714403)
 (.leaf 11204034560000000000110792312110706282244404111935488000000000001106227285108093970044051103626240000000000010810818561079435077000011196170240000000000000000000010892946724406110205337600000000000000000000106336705800001120403456000000000000000000000000000000440711204034560000000000000000000000000000000000112040345600000000000000000000103577859444081120403456000000000000000000000000000000000011135877120000000000000000000010442276280000112040345600000000000000000000000000000000001120403456000000000000000000001030799296000011204034560000000000000000000000000000000000112040345600000000000000000000000000000000001112014848000000000000000000000000000000000011204034560000000000000000000000000000000000))
 (.node 1 (.leaf 11204034560000000000000000000010284172620000112040345600000000000000000000101891824200001120403456000000000000000000000000000000000011204034560000000000000000000000000000000000112040345600000000000000000000000000000044091120403456111627460510300271101032562843000011204034560000000000000000000000000000000000112040345600000000000000000000000000000000001120403456104122227800000000001029250756000011204034560000000000000000000000000000000000112040345600000000000000000000000000000000001120403456000000000000000000000000000000000011204034560000000000000000000010578128480000112040345600000000000000000000000000000000001120403456000000000000000000000000000000000011204034560000000000000000000000000000000000)
 (.leaf 11204034560000000000000000000000000000000000112040345610671678401050277210106588731600001120403456000000000000000000000000000000000011204034560000000000000000000000000000000000112040345600000000000000000000000000000000001120403456000000000000000000000000000000000011204034560000000000000000000010446123060000112040345600000000000000000000000000000000001120403456000000000000000000000000000000000011204034560000000000000000000010474996770000112040345600000000000000000000000000000000001120403456000000000000000000000000000000000011204034560000000000000000000000000000000000111044198400000000000000000000000000000000001120403456000000000000000000000000000000441011185684480000000000000000000010409878540000)))
 (.node 2 (.node 1 (.leaf 10936647680000000000000000000010758522024411112040345600000000000000000000101953752144121120403456000000000000000000001053120453000011204034560000000000107058267400000000000000112040345600000000000000000000103396927344131120403456000000000010911639140000000000000011204034560000000000109481568510652299464414112040345600000000001074030392000000000000001120403456000000000011078437441073627223441511204034560000000000109920654510618233240000112040345600000000000000000000000000000000001120403456000000000011075338371057255105441611204034560000000000110386720310570606954417112040345600000000001098820616104125690544181120403456000000000010750454140000000000441911204034560000000000000000000000000000004420)
 (.leaf 11204034560000000000110329237310583335804421112040345610608310351107522041106392167144221116340224000000000010875557641069755965442311179130880000000000000000000010868674790000109051904000000000000000000000000000000000001120403456000000000000000000001023998887000011204034560000000000000000000000000000004424111751987200000000000000000000000000000000001120403456000000000000000000000000000000442511083448320000000000000000000000000000000000111411200000000000000000000000107610022100001120403456000000000000000000001025693583442611204034560000000000000000000000000000004427110205337600000000000000000000105431331000001099431936000000000000000000000000000000000011204034560000000000000000000000000000000000))
 (.node 1 (.leaf 11204034560000000000000000000010514229440000111797931900000000000000000000000000000000001120403456000000000000000000000000000000000011204034560000000000000000000000000000000000112040345600000000000000000000000000000000001120403456000000000000000000000000000000000011204034560000000000000000000000000000000000112040345600000000000000000000000000000000001120403456000000000000000000000000000000000011204034560000000000000000000000000000000000112040345600000000000000000000000000000000001120403456000000000000000000000000000000000011204034560000000000000000000010704218190000112040345600000000001048535735000000000000001120403456000000000010490356960000000000000011204034560000000000000000000000000000000000)
 (.leaf 11204034560000000000000000000000000000000000112040345600000000000000000000106141845600001120403456107708410100000000000000000000000011204034560000000000000000000000000000000000112040345600000000000000000000000000000000001120403456000000000000000000000000000000000011204034560000000000000000000000000000000000112040345600000000000000000000000000000000001120403456000000000000000000000000000000000011204034560000000000000000000010324511470000112040345600000000000000000000000000000000001120403456000000000000000000000000000000000011204034560000000000000000000000000000000000112040345600000000000000000000101935041200001120403456000000000000000000000000000000000011204034560000000000000000000010377893500000)))))
 (.node 8 (.node 4 (.node 2 (.node 1 (.leaf 11204034561070269947000000000010656206650000112040345600000000000000000000000000000000001120403456000000000000000000001073036874000011204034560000000000000000000010497857724428112040345600000000000000000000000000000000001120403456000000000000000000000000000000000011204034560000000000000000000000000000000000111607808000000000000000000000000000000000001120403456000000000000000000000000000000442911175198720000000000108249575610726294960000112040345600000000000000000000000000000000001120403456000000000010846048621035738281000011204034560000000000110088133010466257434430112040345600000000001067426880000000000044311120403456000000000010464956250000000000443211204034560000000000108807837510441401834433)
 (.leaf 11204034560000000000000000000010188340874434112040345600000000000000000000000000000000001120403456000000000000000000001015383417443511204034560000000000109297228810427981210000112040345600000000001063032927102842231000001120403456000000000011080718881041036294000011204034560000000000000000000000000000000000112040345600000000000000000000103928221200001120403456000000000011048964331050707711443611204034560000000000000000000000000000004437112040345600000000000000000000103713339700001120403456000000000011054835301039835861443811204034561074607352110445849510640202434439112040345600000000001107951931106471574744401117913088000000000011014290011077039127444111112284160000000000000000000000000000004442))
 (.node 1 (.leaf 11204034560000000000000000000000000000004443112040345600000000000000000000000000000000001120403456000000000000000000000000000000000011204034560000000000000000000010009177214444112040345600000000000000000000000000000000001120403456000000000000000000001059707256000010936647680000000000000000000010696198194445109051904000000000000000000000000000000000001120403456000000000000000000000000000000444611120148480000000000000000000000000000000000111044198400000000000000000000000000000000001120403456000000000000000000001024730968444711204034560000000000000000000000000000004448112040345600000000000000000000000000000000001120403456000000000000000000000000000000000011204034560000000000000000000010012237350000)
 (.leaf 11204034560000000000000000000000000000004449112040345600000000000000000000103312685444501090519040000000000000000000000000000000000011204034560000000000000000000010574585524451112040345600000000000000000000104214304944521120403456000000000000000000001067727599445311204034560000000000000000000000000000000000112040345600000000000000000000000000000000001120403456000000000000000000000000000000000011204034560000000000000000000000000000000000112040345600000000000000000000101591706700001120403456000000000000000000001010816339000011204034560000000000000000000000000000000000112040345600000000001033127540000000000000001120403456000000000000000000001061714068000011204034560000000000000000000000000000000000)))
 (.node 2 (.node 1 (.leaf 11204034560000000000000000000000000000000000112040345600000000000000000000104739432300001120403456000000000000000000000000000000000011204034560000000000000000000000000000000000112040345600000000000000000000000000000000001120403456000000000000000000000000000000000011204034560000000000000000000000000000000000112040345600000000000000000000000000000000001120403456000000000000000000001051929393000011204034561086546501101381360810585692230000112040345610986669921054659419106013029844541120403456000000000000000000001016770579000011204034560000000000000000000000000000000000112040345600000000000000000000000000000044551120403456000000000000000000001027482387000011171266560000000000000000000010457683070000)
 (.leaf 11204034560000000000000000000010093494754456112040345610962682431015974514106454509200001120403456000000000010964216841036795129445711204034560000000000108508552910720825980000112040345600000000001101134352103583812700001120403456000000000010699526901047994193445811204034560000000000109568275310588258674459112040345600000000000000000000000000000000001120403456000000000000000000001057503771000011204034560000000000109193157710203090910000112040345600000000000000000000103548556800001120403456000000000010915447571052232501000011204034560000000000110507453310467866004460112040345610545043971086387860105177267000001120010240000000000000000000001047090614446111204034560000000000000000000010449798854462))
 (.node 1 (.leaf 11204034560000000000000000000010316097084463112040345600000000000000000000105867517200001120403456000000000000000000001049088533446411204034560000000000000000000010641905274465112001024000000000000000000000101990015100001119354880000000000000000000000000000000000011204034560000000000000000000000000000004466112040345600000000000000000000000000000044671120403456000000000000000000001034183499446811204034560000000000000000000000000000000000111489843200000000000000000000103381720444691110441984000000000000000000000000000000000011204034560000000000105419636700000000000000112040345600000000001067803528000000000000001120403456000000000010444286720000000000000011204034560000000000000000000010392958090000)
 (.leaf 11104594950000000000000000000010503084460000110664540500000000000000000000000000000000001117499608000000000000000000000000000000000011204034560000000000000000000000000000000000112040345600000000000000000000000000000000001120403456000000000000000000000000000000000011204034560000000000000000000000000000000000112040345600000000000000000000000000000000001120403456000000000000000000000000000000000011204034560000000000000000000010385369040000112040345600000000000000000000104166564100001120403456000000000000000000000000000000000011204034560000000000104197919910376215844470112040345600000000000000000000103474504100001120403456000000000010440998391040895880000011204034561099064556097843381500000000000000))))
 (.node 4 (.node 2 (.node 1 (.leaf 11204034560000000000104838809510145479660000112040345600000000000000000000000000000000001120403456000000000000000000000000000000000011204034560000000000000000000000000000000000112040345600000000000000000000000000000000001120403456000000000000000000000000000000000011204034560000000000000000000000000000000000112040345600000000000000000000000000000000001120403456000000000000000000000000000000000011204034560000000000000000000000000000000000112040345600000000000000000000000000000000001120403456000000000000000000000000000000000011204034560000000000000000000010608236150000112040345600000000000000000000000000000000001120403456000000000000000000000000000000000011204034560000000000000000000010307478330000)
 (.leaf 11204034560000000000000000000000000000000000112040345600000000000000000000106739689000001120403456000000000000000000001051450478000011204034560000000000000000000010504075070000112040345610178932910000000000105203218644711120403456000000000000000000000000000000000011204034560000000000000000000000000000004472112040345600000000000000000000104920105900001120403456000000000000000000000000000000000011204034560000000000000000000000000000004473111280128000000000000000000000104422363200001103626240000000000000000000000000000000000011175198720000000000000000000010592200894474112040345600000000000000000000104118530044751120403456000000000000000000000000000000447611204034560000000000107594760810176154600000))
 (.node 1 (.leaf 11204034560000000000109283639310343486440000112040345600000000001041455750000000000000001120403456000000000010585768980000000000000011204034560000000000000000000009954446444477112040345600000000001046911700000000000000001120403456000000000011016615761031425839000011204034560000000000110226555510389559570000112040345600000000001102454561104413573500001120403456106097686200000000001040080303000011204034560000000000000000000000000000004478112040345600000000000000000000107470675300001120403456000000000011079918031065572181000011204034560000000000107503073400000000004479112040345600000000000000000000103560358644801120403456000000000010763892691040472505448111204034560000000000109346847510262664704482)
 (.leaf 11075584000000000000109477258910586569130000112040345600000000000000000000000000000044831120403456000000000000000000000000000000000011204034560000000000000000000010365431250000112040345600000000000000000000104671802444841120403456000000000000000000000000000000448511204034560000000000000000000010190878564486109681049600000000000000000000105084475400001117126656000000000000000000001028420045000011179130880000000000000000000000000000004487110205337610479225610000000000103148119000001119354880000000000000000000001050849759448811204034560000000000000000000000000000000000112040345600000000000000000000102331157544891120403456000000000000000000001020317431449011135877120000000000000000000000000000004491)))
 (.node 2 (.node 1 (.leaf 11075075170000000000000000000010502687240000108596067000000000000000000000000000000000001120403456000000000000000000000000000000000011204034560000000000000000000000000000000000112040345600000000000000000000000000000000001120403456000000000000000000000000000000000011204034560000000000000000000000000000000000112040345600000000000000000000102430617044921120403456000000000010488243030000000000000011204034560000000000105579020310423749670000112040345600000000001035959534000000000000001120403456000000000000000000000000000000000011204034560000000000000000000000000000000000112040345600000000000000000000000000000000001120403456000000000000000000000000000000000011204034560000000000000000000000000000000000)
 (.leaf 11204034560990873114000000000010511054960000112040345600000000000000000000000000000000001120403456000000000000000000000000000000000011204034560000000000000000000000000000000000112040345600000000000000000000000000000000001120403456000000000000000000001024161169000011204034560000000000000000000000000000000000112040345600000000000000000000102329067100001120403456000000000000000000000000000000000011204034560000000000000000000000000000000000112040345600000000000000000000000000000044931120403456000000000000000000000000000000449411204034560000000000000000000010246833830000112040345600000000000000000000000000000044951120403456000000000000000000000000000000000011204034560000000000107532097910595070374496))
 (.node 1 (.leaf 11204034560000000000108721162210370056194497112040345600000000001073995160091569411800001120403456000000000000000000001036744908000011204034560000000000108536654710487038100000112040345600000000000000000000000000000000001120403456000000000010644875121033545010449811204034560000000000105942079200000000000000112040345600000000001074245979102877075000001120403456000000000010504886030000000000000011204034560000000000110069311110308232380000112040345600000000001058912443103255290000001120403456000000000000000000001041663710449911204034561047317373000000000000000000000000112040345600000000001107739332106905608000001120403456000000000011079660341066049476450011204034561036766048109885270310518206724501)
 (.leaf 11204034560000000000110731678210603058304502111673344010526220270000000000000000000000001120403456000000000000000000000000000000450311204034560000000000000000000010209424270000112040345600000000000000000000000000000045041118175232000000000000000000001069361899000011179130880000000000000000000010785922290000112040345600000000000000000000000000000045051120403456000000000000000000000000000000450611204034560000000000000000000010246259120000112040345600000000000000000000105835627945071093664768000000000000000000000000000000000010968104960000000000000000000010598046780000112040345600000000000000000000000000000000001120403456000000000000000000000000000000000011204034560000000000000000000000000000000000)))))))
 (.node 32 (.node 16 (.node 8 (.node 4 (.node 2 (.node 1 (.leaf 11204034560000000000000000000000000000000000112040345600000000000000000000000000000000001120403456000000000000000000000000000000000011204034560000000000105630023010240981110000112040345600000000001025061054103303408200001120403456000000000010385499361030354994000011204034560000000000103856335700000000000000112040345600000000001030429763102476685800001120403456000000000000000000001023706129000011204034560000000000103134244400000000000000112040345600000000000000000000000000000000001120403456000000000000000000000000000000000011204034560000000000000000000000000000000000112040345600000000000000000000000000000000001120403456000000000000000000000000000000000011204034560000000000000000000000000000000000)
 (.leaf 11204034560000000000000000000000000000000000112040345600000000000000000000000000000000001120403456000000000000000000000000000000000011204034560000000000000000000000000000000000112040345600000000000000000000106177804000001120403456000000000000000000001062521111000011204034560000000000000000000000000000004508112040345600000000000000000000104367422745091120403456000000000000000000001037060475000011204034560000000000109335659210467308510000112040345600000000001086909212000000000045101120403456104022832800000000001019713359000011204034560000000000104442196110402294794511112040345600000000001074173418105732669045121120403456000000000010211284750000000000000011204034560000000000107302543710340588824513))
 (.node 1 (.leaf 11204034560000000000109284834710518279774514112040345600000000000000000000000000000000001120403456000000000000000000000000000000000011204034560000000000000000000010487360620000112040345600000000001100648232104715674800001120403456000000000010923416751049693122000011204034560000000000000000000010496731110000112040345600000000000000000000000000000000001107558400000000000010943295651051033106000011204034560000000000000000000000000000000000112040345600000000000000000000000000000000001120403456000000000000000000001046179110451511051991040000000000000000000000000000000000110048051200000000000000000000104850497000001120403456000000000000000000001048613035000011200102400000000000000000000010593310710000)
 (.leaf 11204034560000000000000000000000000000004516112040345600000000000000000000000000000045171120403456000000000000000000000000000000000011051991040000000000000000000000000000000000112040345600000000000000000000000000000000001120403456000000000000000000000000000000000011067719680000000000000000000000000000000000109051904000000000000000000000000000000000001120403456000000000000000000000000000000000011204034560000000000000000000010583888164518112040345600000000001033543614000000000000001120297891000000000000000000000000000000000011204034560000000000000000000000000000004519112040345600000000000000000000000000000000001120403456000000000000000000000000000000000011204034560000000000000000000000000000000000)))
 (.node 2 (.node 1 (.leaf 11204034560000000000000000000010729259520000112040345600000000000000000000000000000000001120403456106073753500000000001035336806452011204034560000000000000000000000000000000000112040345600000000000000000000000000000000001120403456000000000000000000000000000000000011204034561087507020000000000000000000000000112040345600000000000000000000000000000000001120403456000000000000000000000000000000000011204034560000000000000000000000000000000000112040345600000000000000000000000000000000001120403456000000000000000000000000000000000011204034560000000000000000000000000000000000112040345600000000000000000000000000000000001120403456000000000000000000000000000000000011204034560000000000000000000000000000000000)
 (.leaf 11204034560000000000000000000000000000000000112040345600000000000000000000000000000000001120403456000000000000000000000000000000000011204034560000000000108445764210739483070000112040345600000000001066642545105980654600001120403456000000000000000000000000000000000011204034561054838096000000000010661311990000112040345600000000000000000000000000000045211112014848000000000000000000001057497452000011204034560000000000000000000000000000000000112040345600000000000000000000000000000045221120403456000000000010850538621081960372452311204034560000000000000000000000000000004524112040345600000000001082619278105716336745251120403456000000000010867175331036783686452611204034560000000000000000000000000000000000))
 (.node 1 (.leaf 11204034560000000000106719619310361788430000112040345600000000000000000000101894663200001120403456000000000000000000001041754186452711204034560000000000103904654110493086434528112040345600000000000000000000000000000045291120403456000000000000000000001035210422000011204034560000000000000000000000000000004530112040345600000000000000000000000000000000001120403456000000000010842670101045607513453111185684481057847794110652418910778268744532110755840000000000000000000000106031388100001120403456000000000000000000000000000000000011204034560000000000000000000010041949264533112040345600000000000000000000000000000045341120403456000000000000000000001052272788000011204034560000000000000000000010394139234535)
 (.leaf 11181752320000000000000000000009253927584536111817523200000000000000000000000000000000001120403456000000000000000000000000000000453711204034560000000000000000000000000000004538109366476800000000000000000000105872748000001120403456000000000000000000000000000000453911189616640000000000104942157200000000000000112040345600000000000000000000000000000045401120403456000000000000000000001023878445454111013002890000000000000000000010568641710000112040345600000000000000000000000000000000001120403456000000000000000000000000000000000011204034560000000000000000000000000000000000112040345600000000000000000000000000000000001120403456000000000000000000000000000000000011204034560000000000000000000000000000000000))))
 (.node 4 (.node 2 (.node 1 (.leaf 11204034560000000000000000000000000000000000112040345600000000000000000000000000000000001120403456000000000000000000001042099063000011204034560000000000000000000000000000000000112040345600000000001016833507103384756000001120403456000000000000000000000000000000000011204034560000000000000000000000000000000000112040345600000000000000000000000000000000001120403456000000000000000000000000000000000011204034560000000000000000000010355174830000112040345610797423381028523871102545449745421120403456108709465109900570711036201263454311204034560000000000000000000000000000004544112040345600000000000000000000000000000000001120403456105852061110277185651030603450454511204034560000000000000000000000000000000000)
 (.leaf 11004805120000000000000000000000000000000000112040345610300620070000000000105735127045461120403456000000000000000000001067279041454711204034560000000000000000000010418959574548112040345600000000000000000000000000000000001077936128000000000000000000000000000000000011204034560000000000000000000000000000000000112040345600000000001087013441103579260745491120403456000000000010759782271067491606000011204034561114985633000000000000000000000000112040345600000000000000000000000000000045501120403456000000000000000000001027859491455111204034560000000000000000000000000000000000112040345600000000001089740787000000000045521120403456000000000010687589910000000000455311204034560000000000109078307100000000000000))
 (.node 1 (.leaf 11204034561058019794107238790300000000000000112040345600000000000000000000102511042600001120403456000000000000000000001024722824000011204034561058533294106029656310176746040000112040345600000000000000000000000000000000001120403456000000000000000000001048824592000011204034560000000000000000000000000000004554112040345600000000000000000000100965337845551120403456000000000010806016080000000000000011204034560000000000000000000000000000004556112040345600000000000000000000105740791245571120403456000000000000000000000000000000455811204034560000000000000000000010161127394559112040345600000000000000000000000000000045601120403456000000000000000000001038110608456111204034560000000000000000000010365259464562)
 (.leaf 11204034560000000000000000000000000000004563112040345610637683730000000000104869159645641120403456000000000000000000000000000000000011204034560000000000000000000000000000004565111751987200000000000000000000000000000045661120403456000000000000000000000000000000456711204034560000000000000000000000000000000000112040345600000000000000000000000000000000001120403456000000000000000000000000000000456811204034560000000000000000000000000000000000112040345600000000000000000000000000000045691120403456000000000000000000001032390685000011201266580000000000000000000000000000000000111286422100000000000000000000000000000000001120403456000000000000000000000000000000000011204034561058463669000000000000000000000000)))
 (.node 2 (.node 1 (.leaf 11204034560000000000000000000000000000000000112040345600000000000000000000104107160300001120403456000000000000000000001041666487000011204034560000000000000000000010294885470000112040345600000000000000000000000000000000001120403456000000000010491195820000000000000011204034560000000000000000000010715944120000112040345600000000000000000000000000000000001120403456000000000000000000000000000000000011204034561093217312000000000000000000000000112040345600000000000000000000104314060800001120403456000000000000000000000000000000000011204034560000000000000000000000000000000000112040345600000000000000000000000000000000001120403456000000000000000000000000000000000011204034560000000000000000000000000000000000)
 (.leaf 11204034560000000000000000000010670616270000112040345610661820020000000000104018456400001120403456000000000000000000000000000000457011181752320000000000000000000000000000000000112040345600000000000000000000103677148145711120403456000000000000000000000000000000000011204034560000000000107460417310633319914572112040345600000000001072327505104080822845731120403456000000000000000000000000000000457411204034560000000000000000000000000000000000112040345600000000001057602142000000000000001120403456000000000000000000000000000000000011204034560000000000108353049110183474220000112040345600000000001081380490000000000000001120403456000000000000000000000000000000457511204034560000000000000000000000000000004576))
 (.node 1 (.leaf 11204034560000000000000000000000000000004577112040345600000000001067704543000000000045781120403456000000000000000000000000000000000010863247360000000000000000000000000000000000112040345600000000000000000000000000000045791120403456000000000000000000000000000000458010863247360000000000000000000010601243550000110205337600000000000000000000000000000000001118961664000000000000000000001060565798000011204034560000000000000000000000000000000000111634022400000000000000000000000000000000001120403456000000000000000000000000000000458111204034560000000000000000000000000000000000112040345600000000000000000000000000000045821120403456000000000000000000000000000000000011204034560000000000000000000000000000004583)
 (.leaf 11204034560000000000000000000010431611280000112040345600000000000000000000000000000000001120403456000000000000000000000000000000000011204034560000000000102524895910565638760000112040345600000000000000000000000000000000001099325139000000000000000000000000000000000011204034560000000000000000000000000000000000112040345600000000000000000000000000000000001120403456000000000010437374510000000000000011204034560000000000000000000000000000000000112040345600000000000000000000000000000000001120403456000000000000000000000000000000000011204034561100897744000000000000000000000000112040345610672789550000000000000000000000001120403456000000000000000000001030148856000011204034560000000000000000000000000000000000)))))
 (.node 8 (.node 4 (.node 2 (.node 1 (.leaf 11204034560000000000000000000000000000000000112040345600000000000000000000104917660400001120403456000000000000000000000000000000000011204034560000000000000000000000000000000000112040345600000000001040576623000000000000001118568448000000000000000000001056417802000011204034560000000000000000000000000000000000110755840000000000000000000000104039930300001120403456000000000010769152341068721222458411204034560000000000107561751700000000000000112040345610811560321055031873000000000000001120403456000000000000000000000000000000000011204034560000000000000000000000000000000000112040345600000000001057400816102628818945851120403456000000000010642660520000000000000011204034560000000000108071653200000000000000)
 (.leaf 11204034560000000000000000000010339435360000112040345600000000000000000000000000000045861120403456000000000000000000001035296247458711204034560000000000000000000000000000000000112040345600000000000000000000000000000000001120403456000000000000000000000000000000458811204034560000000000000000000000000000004589112040345600000000001074841990103580165445901120403456000000000000000000000000000000000010779361280000000000107446827700000000000000112040345600000000000000000000102467211945911120403456000000000000000000000000000000459211204034560000000000000000000010244760250000111712665600000000000000000000106700389100001100480512000000000000000000001039931475000010994319360000000000000000000000000000000000))
 (.node 1 (.leaf 11204034560000000000000000000010211496394593112040345600000000000000000000000000000000001120403456000000000000000000000000000000459411204034560000000000000000000010599781390000112040345600000000000000000000104459408400001120403456000000000000000000000000000000459511204034560000000000000000000010443786060000111986459210251386320000000000106471020400001120403456000000000000000000000000000000000011204034560000000000000000000000000000000000112040345600000000000000000000000000000000001120403456000000000000000000001032709070000011204034560000000000104902227400000000000000112040345600000000001030322389000000000000001120403456000000000000000000001024952330459611204034560000000000101688719400000000000000)
 (.leaf 11204034560000000000000000000000000000000000112040345600000000000000000000000000000000001120403456000000000000000000000000000000000011204034560000000000000000000000000000000000112040345600000000000000000000000000000000001120403456000000000000000000001069154548000011204034560000000000000000000000000000000000112040345600000000000000000000103946568800001120403456000000000000000000000000000000000011204034560000000000000000000000000000000000112040345600000000000000000000000000000000001117519872000000000000000000001037517510000011204034560000000000000000000010388189170000110362624000000000000000000000000000000000001120403456000000000000000000001039194063459711204034560000000000000000000010411115514598)))
 (.node 2 (.node 1 (.leaf 11204034560000000000000000000010139868534599112040345600000000000000000000101435863746001120403456000000000000000000001054166917000011204034560000000000109582221300000000000000112040345600000000000000000000101809010500001120403456000000000000000000001030983974000011204034560000000000109071774500000000000000112040345600000000001077436586000000000000001120403456000000000000000000001030766577000011204034560000000000000000000000000000000000112040345600000000000000000000000000000000001120403456104145715910978910540000000000000011204034560000000000000000000010168212660000112040345600000000000000000000000000000046011120403456000000000000000000000000000000460211185684480000000000000000000000000000000000)
 (.leaf 11204034560000000000000000000000000000000000112040345600000000000000000000000000000046031120403456000000000000000000000000000000000011204034561075862259103507369710531679330000112040345600000000000000000000000000000046041120403456000000000000000000001028901350000011204034560000000000000000000010520890054605112040345600000000000000000000000000000000001120403456000000000000000000000000000000000011171879060000000000000000000010767327384606112040345600000000000000000000000000000000001120403456000000000000000000000000000000000011204034560000000000103599979900000000000000112040345600000000001048200190000000000000001120403456000000000010168871941050859202000011204034560000000000000000000000000000000000))
 (.node 1 (.leaf 11204034560000000000000000000000000000000000112040345600000000000000000000000000000000001120403456000000000000000000000000000000000011204034560000000000000000000000000000000000112040345600000000000000000000000000000000001120403456000000000000000000000000000000000011204034560000000000000000000010315134450000112040345600000000000000000000000000000000001120403456000000000000000000000000000000000011204034560000000000000000000010188434060000112040345600000000001016887194000000000000001120403456000000000000000000001065814057000011204034561041151679000000000000000000000000112040345600000000000000000000102566555846071120403456000000000000000000001034606541460811204034561050932360108544393210343760534609)
 (.leaf 11204034560000000000104724053410316162734610112040345600000000000000000000000000000046111120403456000000000010564310930000000000000011204034560000000000000000000000000000000000112040345610822328511026107952000000000000001120403456000000000010489081890000000000000011204034560000000000000000000000000000000000112040345600000000000000000000000000000000001120403456000000000000000000000000000000461211204034560000000000105486745610177320250000112040345600000000000000000000000000000046131120403456000000000010774210670961267434000011204034560000000000000000000010215935200000112040345610518350411066596408000000000000001120403456000000000000000000000000000000461411204034561040482604103394626800000000004615))))
 (.node 4 (.node 2 (.node 1 (.leaf 11204034561068038535109501302710677245420000112040345600000000000000000000101260222646161120403456000000000000000000001054184189000011204034560000000000000000000000000000004617112040345600000000000000000000104265886846181120403456000000000000000000001027993076461911204034560000000000000000000010672560800000112040345600000000000000000000107060830146201120403456000000000010864388210000000000462111204034560000000000000000000000000000004622112040345600000000000000000000000000000046231120403456000000000000000000000000000000462411204034560000000000000000000000000000004625112040345600000000000000000000000000000046261120403456000000000000000000001030197215000011204034560000000000000000000000000000000000)
 (.leaf 11204034560000000000000000000010566042840000112040345600000000000000000000000000000000001120403456000000000000000000000000000000000011204034560000000000000000000000000000000000112040345610517541750000000000000000000000001120403456000000000000000000001035906442000011204034560000000000000000000010407812050000112040345600000000000000000000102431661800001120403456000000000000000000000000000000000011204034560000000000000000000000000000000000112040345610747724571070355343102376980246271120403456000000000010415631240000000000000011204034560000000000000000000000000000000000112040345600000000001025758986000000000000001120403456000000000010245510271041338044000011204034560000000000000000000010466625480000))
 (.node 1 (.leaf 11204034560000000000000000000010416017360000112040345610422501170000000000000000000000001120403456000000000000000000000000000000462811204034560000000000000000000010663955104629112040345600000000000000000000104494307946301120403456000000000000000000000000000000463111020533760000000000000000000000000000000000112040345600000000001046629843103356676446321120403456000000000010070490350000000000000011204034560000000000000000000000000000000000112040345600000000000000000000000000000000001120403456000000000000000000000000000000000011204034560000000000000000000000000000004633112040345600000000000000000000103505334600001120403456000000000011078302171040898613000011204034560000000000108971541110193692244634)
 (.leaf 11204034560000000000000000000000000000004635112040345600000000001001452156000000000000001120403456000000000010449252780000000000463611204034560000000000000000000000000000000000112040345600000000000000000000000000000000001120403456101704986610977346060000000000463711204034560977110965000000000000000000000000112040345600000000000000000000000000000046381120403456000000000000000000000000000000463911204034560000000000000000000000000000000000112040345600000000000000000000000000000046401120403456000000000000000000000000000000464111204034560000000000000000000010389122954642112040345600000000000000000000000000000046431118175232000000000000000000000000000000464411200102400000000000000000000010498283834645)))
 (.node 2 (.node 1 (.leaf 11204034560000000000000000000010234217064646112040345600000000000000000000000000000000001120403456000000000000000000000000000000464711204034560000000000000000000000000000004648112040345600000000000000000000097684057800001120403456000000000000000000000000000000000011204034560000000000000000000000000000000000109844543510831587580999304672105401744700001120403456000000000000000000000000000000000011204034560000000000000000000000000000000000112040345600000000000000000000000000000000001120403456000000000000000000001052686690000011204034560000000000000000000010822878370000112040345600000000000000000000105695280200001120403456000000000000000000000000000000000011204034560000000000000000000010327414630000)
 (.leaf 11204034560000000000000000000000000000000000112040345600000000000000000000000000000000001120403456000000000000000000000000000000000011204034560000000000000000000000000000000000112040345600000000000000000000000000000000001120403456000000000000000000000000000000000011204034561074472530104407299500000000004649112040345600000000000000000000000000000000001120403456000000000000000000000000000000000011204034560000000000000000000010430803590000112040345600000000000000000000000000000000001120403456000000000010320672190000000000000011204034561041009274000000000010181717310000112040345600000000000000000000106185343900001120403456000000000000000000001048664361000011204034560000000000000000000010428911380000))
 (.node 1 (.leaf 11204034560000000000000000000000000000000000112040345600000000000000000000102843528000001099431936000000000000000000000000000000000011204034560000000000000000000000000000004650112040345610477245231062395393106985011946511117913088000000000010683898921070236852465211204034560000000000105798298510361819014653112040345600000000001082830252104785418446541120403456000000000000000000001042026183465511204034560000000000000000000000000000004656112040345600000000001071507099000000000046571120403456000000000010642257870000000000465811204034560000000000108197146810282434494659112040345600000000000000000000000000000000001120403456000000000000000000001036442273466011204034560000000000000000000010629965894661)
 (.leaf 11204034560000000000100683428710392107680000112040345600000000000000000000000000000046621120403456000000000000000000000000000000466311204034560000000000000000000000000000004664112040345600000000001047844513000000000000001118961664000000000000000000001058426521466511204034560000000000000000000000000000004666111489843200000000000000000000000000000046671077936128000000000000000000000000000000000010905190400000000000000000000000000000000000110205337600000000000000000000000000000000001116078080000000000000000000000000000000000011091312640000000000000000000000000000000000112040345600000000000000000000104768277046681120403456000000000000000000000000000000000011204034560000000000000000000010749497834669))))))
 (.node 16 (.node 8 (.node 4 (.node 2 (.node 1 (.leaf 11204034560000000000000000000000000000004670112040345600000000000000000000000000000000001120403456000000000000000000000000000000467111124134641100843014101661875910408031890000112040345600000000000000000000000000000000001120403456000000000000000000000000000000000011204034560000000000000000000000000000000000112040345600000000000000000000105435648200001120403456000000000010482270340000000000000011204034560000000000101688719400000000000000112040345600000000000000000000000000000000001120403456000000000000000000000000000000000011204034560000000000000000000010385150610000112040345600000000000000000000000000000000001120403456106018028010335704580000000000467211204034560000000000000000000000000000000000)
 (.leaf 11204034560000000000000000000000000000000000112040345600000000000000000000102504677446731110441984000000000000000000001058251147000011128012801016183357000000000000000000000000112040345600000000000000000000000000000046741120403456000000000000000000001041978751467511204034560000000000107438816600000000004676112040345600000000001060947519102610032300001120403456000000000010587631260000000000000011204034560000000000106586659900000000000000112040345600000000000000000000000000000000001120403456000000000000000000001031703833467711204034560000000000106783792210342722580000112040345600000000000000000000105748378446781120403456000000000000000000000000000000467911204034560000000000000000000000000000000000))
 (.node 1 (.leaf 11204034560000000000110316224510326424324680112040345600000000000000000000000000000000001120403456000000000000000000000000000000468111204034560000000000000000000000000000004682112040345600000000000000000000000000000000001120403456000000000000000000000000000000468311204034560000000000110688699700000000000000109051904000000000000000000000000000000000001120403456000000000000000000001046103319468411163402240000000000000000000010246229854685111673344000000000000000000000000000000000001118568448000000000010829848121019809513000011175198721065450398107503367010694727464686111358771200000000000000000000000000000000001114112000000000000000000000001076088280468711179130880000000000000000000000000000004688)
 (.leaf 11204034560000000000000000000000000000000000111201484810921576201105341343000000000046891120403456000000000000000000001026633108000011204034560000000000000000000000000000000000112040345600000000000000000000000000000000001109746909000000000000000000000000000000000011022576390000000000000000000000000000000000111129004600000000001097821848000000000000001120173359000000000010424019850000000000000011204034560000000000000000000000000000000000112040345600000000000000000000000000000000001120403456000000000000000000000000000000000011204034560000000000000000000000000000000000112040345600000000000000000000000000000000001120403456000000000000000000000000000000000011204034560000000000000000000010273773010000)))
 (.node 2 (.node 1 (.leaf 11204034560000000000103367783210308918900000112040345600000000000000000000000000000000001120403456000000000000000000000000000000000011204034560000000000000000000000000000000000112040345600000000000000000000101458445000001120403456000000000000000000000000000000000011204034560000000000000000000000000000000000112040345600000000000000000000104998768400001120403456000000000010168335070000000000000011204034560000000000000000000000000000000000112040345600000000000000000000000000000000001120403456109330683000000000000000000000000011204034560000000000000000000000000000000000112040345600000000000000000000000000000000001120403456000000000000000000000000000000000011204034560000000000000000000000000000000000)
 (.leaf 11204034560000000000000000000000000000000000112040345600000000000000000000000000000000001120403456000000000000000000000000000000000011204034560000000000000000000000000000000000112040345610587501900000000000105969256646901120403456000000000000000000000000000000469111204034560000000000000000000000000000000000112040345600000000000000000000000000000000001120403456000000000000000000001033846069469211200102400000000000000000000010572449140000112040345610168877310000000000105146620046931115684864000000000000000000001042754027469411204034560000000000000000000010440794094695112040345600000000000000000000102060944146961120403456000000000000000000001040828601000011204034560000000000000000000010376879340000))
 (.node 1 (.leaf 11204034560000000000105939562700000000000000112040345600000000001060622041000000000046971120403456000000000010909384701033415997000011204034560000000000108526735200000000004698112040345600000000001102366743000000000000001120403456105787408410860676251046214901469911204034560000000000000000000000000000004700112040345600000000000000000000104611800000001120403456000000000000000000000000000000000011204034560000000000000000000010587360804701112040345600000000000000000000000000000047021120403456000000000000000000001041371373000011204034560000000000000000000000000000004703112040345600000000000000000000000000000000001090519040000000000010216116580000000000000011091312640000000000000000000000000000000000)
 (.leaf 11112284160000000000000000000000000000004704112040345600000000000000000000106062858000001120403456000000000000000000000958905154470511204034560000000000000000000000000000004706112040345600000000000000000000000000000000001120403456000000000000000000000000000000470711204034561057960369000000000000000000000000112040345600000000000000000000000000000000001120403456000000000000000000000000000000000011204034560000000000000000000000000000000000112040345600000000000000000000000000000000001120403456000000000000000000000000000000000011204034560000000000000000000010080845620000112040345600000000001016833507104871010200001120403456000000000010163503240000000000000011204034560000000000000000000000000000000000))))
 (.node 4 (.node 2 (.node 1 (.leaf 11204034560000000000108216272810443346750000112040345600000000001096626576108077815200001120403456000000000010963314021063604402470811204034560000000000108714933610503035740000112040345600000000000000000000000000000000001120403456000000000000000000000000000000000011204034560000000000000000000009806425050000112040345610386934140000000000000000000000001120403456000000000000000000001040981284470911204034560000000000000000000000000000000000112040345600000000000000000000000000000000001120403456000000000000000000001083245442000011175198720000000000000000000010581099270000112040345610674929650000000000104967509747101120403456104909951600000000001033875662471111004805120000000000000000000010682460900000)
 (.leaf 11204034560000000000000000000000000000004712112040345600000000000000000000000000000000001120403456000000000000000000001019987432471311204034560000000000000000000000000000000000112040345600000000000000000000000000000000001120403456000000000010797761691038651670471411204034560000000000106926230700000000000000112040345600000000001083407598103451551700001120403456000000000010577179051022655985471511204034560000000000000000000000000000004716112040345600000000000000000000000000000047171120403456000000000010142431051032362798000011204034560000000000000000000000000000004718112040345600000000000000000000000000000047191120403456000000000000000000001025855214000011204034561061886792000000000000000000004720))
 (.node 1 (.leaf 11204034560000000000106549750010654714984721112040345600000000001107292796104940410500001108344832000000000010616857170000000000000011204034561034828615000000000000000000000000112040345610142817601090324215000000000000001120403456000000000000000000000000000000472211204034560000000000000000000000000000000000112040345600000000001040610178000000000000001120403456000000000010359997990000000000000011204034560000000000101640401100000000000000112040345600000000000000000000000000000000001120403456000000000000000000000000000000000011204034560000000000000000000000000000000000112040345610669968710000000000000000000000001120403456000000000000000000000000000000000011204034560000000000000000000000000000000000)
 (.leaf 11204034560000000000105159254310477916220000112040345600000000000000000000000000000000001120403456000000000010730732521049868804000011204034560000000000000000000000000000000000112040345600000000001074087854000000000000001120403456000000000010978223720000000000000011204034560000000000109700668510845928820000112040345600000000001097866936104103776200001120403456000000000010969409391084531630000011204034560000000000109413935310762097644723112040345610681250391040549780000000000047241120403456000000000000000000000000000000000011204034560000000000000000000000000000000000112040345600000000000000000000106748218300001120403456000000000000000000000000000000000011204034560000000000000000000010319615150000)))
 (.node 2 (.node 1 (.leaf 11204034560000000000000000000000000000004725112040345600000000000000000000105357650047261120403456000000000000000000001032191952472711204034560000000000000000000010321959594728110755840000000000000000000000105092034500001107558400000000000000000000001040015221000011181752321050189431000000000010687029010000112040345600000000001051730117000000000000001120403456000000000000000000001015405938000011204034560000000000000000000000000000000000112040345600000000001019142052000000000000001120403456000000000010676525331019471805000011204034560000000000000000000000000000000000112040345600000000001083079603102788179547291120403456000000000010950589551053106673000011204034560000000000103642929610337689670000)
 (.leaf 11204034560000000000000000000010120746100000112040345600000000000000000000104449462947301120403456000000000000000000000000000000473111204034560000000000000000000010488741094732110205337600000000001082552589000000000000001111228416000000000000000000000000000000000011120148480000000000000000000000000000000000111791308810491783021019464175000000000000001120403456000000000000000000000000000000000011204034560000000000000000000000000000004733112040345600000000001074783689000000000000001120403456109072361900000000000000000000000011204034561082830233102489999300000000000000112040345600000000001062544710000000000000001086324736000000000000000000000000000000000011204034560000000000000000000000000000004734))
 (.node 1 (.leaf 11204034560000000000000000000000000000000000112040345600000000000000000000000000000000001120403456108949893900000000000000000000000011204034561106276201000000000000000000000000112040345610982486730000000000000000000000001120403456111873214100000000000000000000000011204034560000000000000000000000000000000000112040345600000000000000000000000000000000001120403456000000000000000000000000000000000011204034560000000000000000000000000000000000112040345600000000000000000000000000000000001120403456000000000000000000000000000000000011204034560000000000000000000010287968340000112040345600000000000000000000000000000000001120403456000000000010496396751021572399000011204034560000000000000000000000000000000000)
 (.leaf 11204034560000000000109677599800000000004735112040345600000000001092834191102553977847361120403456000000000010962827481078426708473711204034560000000000109785403910488233620000112040345600000000001097857814101521121000001120403456000000000010966221721075699415000011204034560000000000109686187610761486020000112040345600000000001095659894108238775700001120403456000000000010954051941066783165473811204034561075405914104507291710827475614739112040345600000000000000000000102758805700001120403456104919548210579980850000000000474011204034560000000000000000000010713761510000112040345600000000000000000000000000000000001120403456000000000000000000000000000000000011204034560000000000000000000010400930250000)))))
 (.node 8 (.node 4 (.node 2 (.node 1 (.leaf 11204034561076630559102155797100000000000000112040345600000000000000000000000000000047411120403456000000000000000000000000000000000011051991040000000000000000000010510287390000112040345600000000000000000000102368956047421120403456107568300710536292971033437033474311204034561040574207000000000000000000004744112040345600000000000000000000000000000047451118175232000000000000000000001057029213474611204034560000000000000000000010294927224747112040345600000000001080029086000000000000001120403456000000000010614961340000000000000011204034560000000000108199663410340620594748112040345600000000000000000000000000000000001120403456000000000000000000001024668237000011204034560000000000000000000000000000000000)
 (.leaf 11204034560000000000000000000010376477560000112040345600000000001085065187000000000000001120403456000000000011043820541031050069000011204034560000000000107545687510481524624749112040345610742752011104752673107034694847501120403456000000000010567599261037814964475111204034560000000000110866147600000000000000112040345600000000000000000000000000000047521120403456000000000000000000000000000000000011204034560000000000107624121000000000000000112040345610942715060000000000000000000000001120403456000000000000000000000000000000000011204034560000000000000000000000000000000000112040345600000000000000000000000000000000001120403456000000000010497369830000000000000011112284160000000000000000000000000000000000))
 (.node 1 (.leaf 10968104960000000000000000000000000000000000112040345600000000000000000000105100531447531120403456000000000000000000000000000000000011204034560000000000000000000000000000000000112040345600000000000000000000000000000000001120403456000000000000000000000000000000000011204034560000000000000000000000000000000000112040345600000000000000000000000000000000001120403456000000000000000000000000000000000011204034561120403456000000000000000000000000112040345611204034560000000000000000000000001120403456000000000000000000000000000000000011204034560000000000000000000000000000000000112040345600000000000000000000000000000000001120403456000000000000000000000000000000000011204034560000000000105269984010213019470000)
 (.leaf 11204034561024253600110260524210345255260000112040345600000000001097699479000000000000001120403456000000000010971116471083660726000011204034560000000000109624992710863848164754112040345600000000001097742785106273614900001120403456000000000010969606521066862654000011204034560000000000109768815410412436490000112040345600000000001096021443108076858547551120403456000000000010955723371057468020475611204034560000000000000000000000000000000000112040345600000000000000000000102801350200001120403456000000000000000000000000000000000011204034561087110711105811720310553931474757112040345600000000000000000000000000000000001120403456000000000000000000000000000000000011204034560000000000000000000000000000000000)))
 (.node 2 (.node 1 (.leaf 11204034560000000000000000000000000000004758112040345600000000000000000000000000000000001102053376000000000000000000001053304161000011200102400000000000000000000000000000004759111961702400000000000000000000105537092447601109917696000000000000000000001050839870476111204034560000000000102728906810267540114762112040345610869230321052350874000000000000001120403456108186824210675258650000000000000011204034560000000000105984357810247833910000112040345600000000000000000000000000000000001120403456000000000011024346910000000000000011204034560000000000000000000010324554334763112040345600000000001048790748103515281747641120403456000000000010448313251030933937476511204034560000000000000000000000000000004766)
 (.leaf 11204034561065423412108108772810374954970000112040345600000000001087785402102796563047671120403456000000000000000000000986984856476811204034560000000000000000000000000000004769112040345600000000000000000000000000000047701120403456108228722800000000000000000000000011204034560000000000000000000000000000000000112040345610797411470000000000000000000000001102053376000000000000000000000000000000000011204034560000000000000000000000000000000000112040345600000000000000000000000000000000001120403456000000000000000000000000000000477111204034560000000000000000000000000000000000112040345610961008900000000000000000000000001120403456109890241700000000000000000000000011204034560000000000000000000000000000000000))
 (.node 1 (.leaf 11204034560000000000000000000000000000000000112040345600000000000000000000000000000000001120403456000000000000000000001036360009000011204034561082648596104687143510836438080000112040345600000000000000000000102755885900001120403456000000000010958830311082518350477211204034560000000000109705083010736902650000112040345600000000001096794348105736718700001120403456000000000000000000001071270692000011204034560000000000104197919900000000000000112040345600000000000000000000000000000000001120403456000000000000000000000000000000000011204034560000000000000000000009982650814773112040345600000000000000000000000000000000001116078080000000000000000000001046147124477411204034560000000000000000000010599011924775)
 (.leaf 11204034560000000000000000000000000000000000112040345600000000000000000000105548207247761120403456000000000010789670881032081458000011204034560000000000000000000000000000000000112040345600000000001067276724000000000000001120403456000000000010838249310000000000000011204034560000000000108348414410277199270000112040345600000000001103276173000000000000001120403456000000000000000000001039671224477711204034560000000000107593963900000000004778112040345600000000001085546693000000000047791120403456000000000000000000000000000000478011204034560000000000000000000010526493584781112040345600000000000000000000104581362447821120403456104577017811038270420000000000000011204034561030146295111129180200000000000000))))
 (.node 4 (.node 2 (.node 1 (.leaf 10968104960000000000000000000000000000000000111411200000000000000000000000000000000047831120403456102620271010215579710000000000478411204034560000000000000000000010245262620000112040345600000000000000000000000000000000001120403456000000000000000000001039064410000011204034560000000000000000000000000000000000112040345610748647480000000000000000000000001120403456000000000000000000000000000000000011204034560000000000000000000000000000000000112040345611018877640000000000000000000000001108344832000000000000000000000000000000000011204034560000000000000000000010667459950000112040345600000000000000000000000000000000001120403456000000000000000000000000000000000011204034560000000000102508789800000000000000)
 (.leaf 11204034560000000000000000000000000000000000112040345611023338960000000000000000000000001120403456110621643700000000000000000000000011204034561029362464000000000000000000000000112040345600000000000000000000000000000000001120403456000000000000000000000000000000000011204034560000000000000000000000000000000000112040345600000000000000000000000000000000001120403456000000000000000000000000000000000011204034560000000000000000000000000000000000112040345600000000000000000000000000000047851120403456000000000000000000001034831317000011204034560000000000109714163610696041460000112040345600000000001096724093107625484800001120403456000000000010973851161074458337000011204034560000000000109656827510657165784786))
 (.node 1 (.leaf 11204034560000000000000000000000000000000000112040345600000000000000000000000000000000001120403456000000000000000000000000000000000011204034561117172733103893916710557388430000112040345600000000000000000000000000000000001120403456000000000000000000000000000000000011204034560000000000000000000000000000000000112040345600000000000000000000105122822347871120403456000000000000000000000000000000000011204034560000000000000000000000000000000000111856844800000000000000000000105007482047881120403456000000000000000000000000000000000011204034560000000000000000000000000000000000112040345600000000001021880094000000000000001120403456000000000000000000000000000000000011204034560000000000000000000010427781124789)
 (.leaf 11204034560000000000000000000010367154534790112040345600000000001102685300103349337400001120403456000000000011006828871038761508000011204034560000000000000000000000000000004791112040345600000000000000000000106822576947921120403456000000000000000000000000000000479311204034560000000000000000000000000000000000112040345600000000000000000000000000000000001120403456000000000000000000000000000000000011204034561054148754106923546400000000000000112040345600000000000000000000000000000000001114112000000000000000000000000000000000000011204034561052704906000000000000000000000000112040345600000000000000000000000000000000001120403456000000000000000000000000000000000011204034560000000000000000000000000000000000)))
 (.node 2 (.node 1 (.leaf 11204034560000000000000000000000000000000000112040345600000000000000000000000000000000001120403456000000000000000000000000000000000011204034560000000000000000000000000000000000112040345610924010100000000000000000000000001120403456000000000000000000000000000000000011204034560000000000000000000000000000000000112040345600000000000000000000000000000000001120403456000000000000000000001071280949000011204034560000000000000000000000000000000000112040345600000000000000000000000000000000001120403456000000000000000000000000000000000011204034561062860306102230959100000000004794112040345600000000001095053502000000000000001120403456000000000010973311141066475180000011204034560000000000109677599810713362910000)
 (.leaf 11204034560000000000109746774310508390940000112040345600000000001097556453105400274400001120403456000000000010973310091075346809000011204034560000000000109703898110767119440000112040345600000000000000000000104877807800001120403456000000000010372614460000000000000011204034560000000000000000000000000000000000112040345600000000000000000000101915172600001120403456000000000000000000000000000000000011204034560000000000000000000010238832194795112040345600000000000000000000000000000000001120403456000000000000000000000000000000479611204034560000000000000000000010537096324797112040345600000000000000000000105486485647981120403456000000000000000000000000000000000011181752321053344353000000000010407586544799))
 (.node 1 (.leaf 11104419840000000000000000000000000000004800112040345600000000000000000000000000000048011120403456000000000000000000000000000000000011204034560000000000106441704700000000000000112040345600000000000000000000000000000000001120403456000000000010879502391049034291000011204034560000000000000000000000000000000000112040345600000000000000000000103638622948021120403456000000000010823690881060368875480311204034560000000000109828133400000000004804112040345600000000001099914438104886697648051120403456000000000010938389361027276790480611204034560000000000109953291400000000004807112040345600000000000000000000104179879600001120403456000000000010745660050000000000000011204034560000000000110030062900000000000000)
 (.leaf 11204034561074578248111378023110580467180000111935488000000000001064781113000000000000001120403456000000000000000000000000000000000011204034560000000000000000000000000000004808112040345600000000000000000000000000000000001120403456000000000000000000000000000000000011204034560000000000000000000000000000000000112040345600000000000000000000000000000000001120403456000000000000000000000000000000000011204034560000000000000000000000000000000000112040345600000000000000000000000000000000001120403456103387150810413617970000000000000011175198720000000000109062735800000000000000111607808000000000000000000000000000000000001118175232000000000000000000001024523069000010863247360000000000000000000000000000000000)))))))))
 (.node 128 (.node 64 (.node 32 (.node 16 (.node 8 (.node 4 (.node 2 (.node 1 (.leaf 11204034560000000000000000000010356241160000112040345610830304600000000000000000000000001120403456000000000000000000000000000000000011204034560000000000000000000000000000004809112040345600000000000000000000000000000048101120403456000000000000000000000000000000000011204034560000000000000000000000000000000000112040345600000000000000000000000000000000001120403456000000000000000000000000000000000011204034560000000000000000000000000000000000112040345600000000000000000000000000000000001120403456000000000000000000000000000000000011204034560000000000000000000000000000000000112040345600000000000000000000000000000000001120403456000000000000000000000000000000481111204034560000000000000000000000000000000000)
 (.leaf 11204034560000000000000000000000000000000000112040345600000000001016887194000000000000001120403456000000000010972928411075084040000011204034560000000000109598337910752028994812112040345600000000001097165020105852033100001120403456000000000010975208011066494276000011204034560000000000109746239610714575030000112040345600000000001097876478104118467500001120403456000000000010168871941059950411000011204034560000000000103985184800000000000000112040345600000000000000000000000000000000001120403456000000000000000000000000000000000011204034560000000000000000000000000000000000112040345609793958880000000000104131966100001120403456105428327310256516120000000000481311204034561091156430105049531410682267374814))
 (.node 1 (.leaf 11204034560000000000000000000010555276070000110991769600000000000000000000000000000048151116733440000000000000000000000000000000481611193548800000000000000000000010132112404817112040345600000000000000000000000000000000001120403456000000000000000000000000000000000011204034560000000000000000000000000000000000112040345600000000000000000000000000000000001120403456000000000000000000000000000000000011204034560000000000105975633700000000000000112040345600000000001087128155103716501348181120403456000000000010789960291030459796481911204034560000000000107371414200000000000000112040345610523592961024846306000000000048201120403456000000000000000000000000000000000011204034560000000000000000000000000000000000)
 (.leaf 11204034560000000000000000000000000000000000112040345600000000000000000000000000000000001120403456000000000000000000000000000000000011204034560000000000000000000000000000000000112040345600000000000000000000000000000000001120403456000000000000000000000000000000000011204034560000000000000000000000000000004821111411200000000000001069448534000000000000001112801280000000000010470392070000000000000011051991040000000000000000000010190987790000112040345600000000000000000000000000000000001120403456000000000000000000001032799324000011204034560000000000000000000000000000000000112040345600000000000000000000000000000000001120403456105764237400000000000000000000000011204034560000000000000000000000000000000000)))
 (.node 2 (.node 1 (.leaf 11204034560000000000000000000000000000000000112040345600000000000000000000000000000000001120403456000000000000000000000000000000000011204034560000000000000000000000000000000000112040345600000000000000000000000000000000001120403456000000000010963305630000000000000011204034560000000000109606883810821583120000112040345600000000001095784464107919444400001120403456000000000010974002151058573384000011204034560000000000109718861310799726770000112040345600000000001096634860105896989400001120403456000000000000000000001026147356000011204034560000000000000000000000000000000000112040345600000000000000000000000000000000001120403456000000000000000000000000000000482211204034560000000000000000000010364568880000)
 (.leaf 11204034560000000000000000000000000000004823112040345600000000000000000000103072945900001120403456000000000000000000000000000000482411204034560000000000000000000000000000004825112040345600000000000000000000102054479348261120403456000000000000000000001073398861482711204034560000000000000000000010418005754828112040345610823574471063596641106923116548291120403456000000000000000000000000000000000011135877120000000000000000000000000000004830109681049600000000000000000000000000000000001107558400000000000000000000001052342757000011204034561073311707105906847110536774884831111896166400000000000000000000000000000000001120403456000000000000000000000000000000000011204034560000000000000000000009736015660000))
 (.node 1 (.leaf 11204034560000000000000000000000000000000000112040345600000000001093739951000000000000001120403456000000000011037723071042147864000011204034560000000000000000000010277279944832112040345600000000000000000000000000000048331120403456000000000000000000000000000000483411204034560000000000110659355310730551490000112040345600000000000000000000105737691500001120403456000000000000000000000000000000000011204034560000000000000000000000000000000000112040345600000000000000000000000000000000001120403456000000000000000000000000000000000011204034560000000000000000000000000000000000112040345600000000000000000000000000000000001120403456000000000000000000000000000000000010936647680000000000106860128500000000000000)
 (.leaf 11204034560000000000000000000000000000000000112040345600000000000000000000000000000000001099431936000000000000000000000000000000000010905190400000000000000000000000000000000000112040345610831389690000000000106538225700001120403456000000000000000000000000000000000011204034560000000000000000000000000000000000112040345600000000000000000000000000000000001120403456000000000010713418430000000000483511204034560000000000000000000000000000000000112040345600000000000000000000000000000000001120403456000000000000000000000000000000000011204034560000000000000000000000000000000000112040345600000000000000000000000000000000001120403456000000000000000000000000000000000011204034560000000000000000000000000000000000))))
 (.node 4 (.node 2 (.node 1 (.leaf 11204034560000000000000000000000000000000000112040345600000000000000000000000000000000001120403456000000000000000000001036279646000011204034560000000000000000000010158920310000112040345600000000001097364564107839355300001120403456000000000010978044411056190207483611204034560000000000109790520900000000000000112040345600000000001095358533106577696448371120403456000000000010894272631057184409483811204034560000000000103613401700000000000000112040345600000000001058452747000000000000001120403456000000000000000000001024735604000011204034560000000000101688719400000000004839112040345600000000000000000000000000000000001120403456107038055100000000000000000000484011204034560000000000000000000000000000000000)
 (.leaf 11204034560000000000000000000010611919744841112040345600000000000000000000102311990248421120403456000000000000000000001071273919484311204034561083062442104155641300000000004844112040345610758402301052451537108012510648451117913088000000000000000000000000000000000011204034560000000000000000000000000000000000112040345600000000001037355398000000000000001120403456000000000010882495020000000000000011204034560000000000000000000000000000004846112040345600000000001108767801104209695100001120403456000000000011077986031022865826000011204034560000000000110515826200000000004847112040345600000000001102014893106096468600001120403456000000000011113017110000000000000011156848640000000000000000000000000000000000))
 (.node 1 (.leaf 11204034560000000000000000000000000000000000112040345600000000000000000000000000000000001120403456000000000000000000000000000000000011204034560000000000000000000000000000000000112040345600000000000000000000000000000000001120403456000000000000000000000000000000000011204034560000000000000000000000000000000000112040345600000000000000000000000000000000001120403456000000000000000000000000000000000011204034560000000000000000000000000000000000112040345600000000000000000000000000000000001120403456000000000000000000000000000000000010994319360000000000000000000000000000000000107793612800000000000000000000000000000000001102053376000000000010688051281041062022484811171266561049768223105646800210754386900000)
 (.leaf 10994319361070321369000000000010251609460000110048051200000000000000000000000000000000001116340224000000000000000000000000000000000011204034560000000000000000000000000000004849112040345600000000000000000000000000000000001120403456000000000000000000000000000000000011204034560000000000000000000000000000000000112040345600000000000000000000000000000000001120403456000000000000000000000000000000000011204034560000000000000000000000000000000000112040345600000000000000000000000000000000001120403456000000000000000000001052674812000011204034560000000000109755582410607059544850112040345600000000001097155582106875576648511120403456000000000010963890731046522692485211204034560000000000109651249110786485064853)))
 (.node 2 (.node 1 (.leaf 11204034560000000000000000000000000000000000112040345600000000000000000000000000000000001120403456000000000010250073671052742713000011204034560000000000000000000000000000000000112040345600000000000000000000000000000048541120403456000000000000000000000000000000485511204034560000000000000000000010668635154856112040345600000000000000000000106954169348571120403456109222515910608267231037610888485810994319360000000000000000000000000000000000111568486400000000000000000000000000000000001120403456000000000000000000000000000000000011204034560000000000000000000010249313420000112040345600000000000000000000102503137400001120403456000000000000000000001024783952485911204034560000000000110809157510424762700000)
 (.leaf 11204034560000000000110810520609411438070000111961702400000000001107878740000000000048601120403456000000000011050568121025526152000011204034561025211915110536829210390603200000112040345600000000001111277699107070415700001120403456000000000000000000000000000000486111204034560000000000000000000000000000004862112040345600000000000000000000000000000000001120403456000000000000000000000000000000000011204034560000000000000000000000000000000000112040345600000000000000000000000000000000001120403456000000000000000000000000000000000011204034560000000000000000000000000000000000112040345600000000000000000000000000000000001120403456000000000000000000000000000000000011204034560000000000000000000000000000000000))
 (.node 1 (.leaf 11204034560000000000000000000000000000000000112040345600000000000000000000000000000000001120403456106738890500000000001015122105000011204034560000000000000000000010365291760000112040345610676482800000000000000000000000001120403456000000000000000000000000000000000011204034560000000000000000000000000000000000112040345600000000000000000000000000000000001120403456000000000000000000000000000000000011204034560000000000000000000000000000000000112040345600000000000000000000102416299700001120403456000000000000000000000000000000486311204034560000000000000000000000000000000000112040345600000000000000000000000000000000001120403456109108318600000000000000000000000011204034560000000000000000000000000000000000)
 (.leaf 11204034560000000000000000000010267062190000112040345600000000000000000000000000000000001120403456000000000000000000000000000000000011204034560000000000000000000000000000000000112040345600000000000000000000000000000000001120403456000000000000000000001057431226000011204034560000000000000000000000000000000000112040345600000000000000000000000000000000001120403456000000000010652525531052393347486411204034560000000000109786809010472561400000112040345600000000001096367787105237428848651120403456000000000010969541511069808420486611204034560000000000109747078410679949754867112040345600000000001093428000103449950248681120403456000000000010361340170000000000000011204034560000000000104894845400000000000000)))))
 (.node 8 (.node 4 (.node 2 (.node 1 (.leaf 11204034560000000000000000000000000000000000112040345600000000000000000000000000000000001120403456099183518700000000001058062931486911204034561087618329000000000000000000000000112040345611005387070000000000000000000048701120010240108602568610726009731083217271000011167334400000000000000000000010677856560000112040345600000000000000000000000000000000001120403456000000000000000000000000000000000011204034560000000000000000000000000000000000112040345600000000000000000000000000000000001120403456000000000000000000001028337313487111204034560000000000000000000000000000000000112040345600000000000000000000102320686800001120403456000000000000000000000000000000000011204034560000000000000000000000000000000000)
 (.leaf 11204034560000000000000000000000000000004872112040345600000000000000000000000000000048731120403456000000000011112466351062719078000011120148481044961047109928518810413778944874110834483200000000001095069336102539060000001120403456101685874011158232630000000000487511200102400000000000111613233110526315140000112040345600000000001101842979104307357400001120403456000000000000000000000000000000000011204034560000000000000000000000000000000000112040345600000000000000000000000000000000001120403456000000000000000000000000000000000011204034560000000000000000000000000000000000112040345600000000000000000000000000000000001120403456000000000000000000000000000000000011204034560000000000000000000000000000000000))
 (.node 1 (.leaf 11204034560000000000000000000000000000000000112040345600000000000000000000000000000000001120403456000000000000000000000000000000000011204034560000000000000000000000000000000000112040345611010725420000000000000000000000001120403456000000000000000000000000000000000011204034560000000000000000000000000000000000112040345600000000000000000000000000000000001120403456000000000000000000000000000000000011204034560000000000000000000000000000000000112040345600000000000000000000000000000000001120403456000000000000000000000000000000000011204034560000000000000000000000000000004876112040345600000000000000000000000000000048771120403456000000000000000000000000000000000011204034560000000000000000000000000000000000)
 (.leaf 11204034560000000000000000000000000000000000112040345600000000000000000000000000000000001120403456000000000000000000001039481931000011204034560000000000000000000000000000000000112040345600000000000000000000000000000000001120403456000000000000000000000966711562000011204034560000000000000000000000000000000000112040345600000000000000000000000000000000001120403456000000000000000000001009211568000011204034561035070744000000000000000000000000112040345600000000001097910138000000000000001120403456000000000010816833190000000000000011204034560000000000109171714300000000000000112040345600000000000000000000000000000000001120403456000000000000000000000000000000000011204034560000000000000000000000000000004878)))
 (.node 2 (.node 1 (.leaf 11020533760000000000000000000000000000000000112040345600000000000000000000000000000000001120403456000000000000000000000000000000000011204034560000000000000000000000000000000000112040345600000000000000000000000000000000001120403456000000000000000000001035435268487911193548801030091266111403445810796893124880107793612800000000001076311255104289730800001117913088000000000000000000000000000000000011204034560000000000000000000000000000000000112040345600000000000000000000000000000000001120403456000000000000000000000000000000000011204034560000000000000000000000000000000000112040345600000000000000000000000000000000001120403456000000000000000000000000000000000011204034560000000000000000000000000000000000)
 (.leaf 11204034560000000000000000000000000000000000112040345600000000000000000000000000000000001120403456000000000000000000000000000000000011204034560000000000000000000000000000000000112040345600000000000000000000000000000000001120403456000000000000000000000000000000000011204034560000000000000000000000000000000000111791308800000000000000000000000000000000001120403456000000000000000000000000000000000011204034561082287421000000000000000000000000112040345600000000000000000000000000000000001120403456000000000000000000000000000000000011204034560000000000000000000000000000000000112040345600000000000000000000000000000000001120010240000000000000000000000000000000000011204034560000000000000000000000000000004881))
 (.node 1 (.leaf 11204034560000000000000000000000000000000000112040345600000000000000000000000000000000001120403456000000000000000000000000000000000011204034560000000000000000000010266118020000112040345600000000000000000000105281869200001120403456000000000000000000000000000000000011204034560000000000000000000010516461280000112040345600000000001066914336000000000000001120403456000000000010861720631065355447000011204034560000000000000000000000000000000000112040345600000000001016833507102897974900001120403456000000000010405766230000000000000011204034560000000000000000000010468909820000112040345600000000000000000000000000000000001120403456000000000000000000000000000000488211204034560000000000000000000000000000000000)
 (.leaf 11204034561090890943105744947000000000004883112040345600000000000000000000104060797648841116340224105909664000000000001063157277488510863247360000000000000000000000000000000000112040345600000000000000000000000000000000001120403456000000000000000000001031203633000011204034560000000000000000000010255817330000112040345600000000000000000000101888371800001120403456000000000000000000000000000000000011204034560000000000000000000009439645370000111896166400000000001109075821105225252548861120403456000000000011005155871079862344488711148984320000000000000000000000000000000000112040345600000000000000000000000000000000001120403456000000000000000000001002860863000011204034560000000000000000000000000000000000))))
 (.node 4 (.node 2 (.node 1 (.leaf 11204034560000000000000000000000000000000000112040345600000000000000000000000000000000001120403456000000000000000000000000000000000011204034560000000000000000000000000000000000112040345600000000000000000000000000000000001120403456000000000000000000000000000000000011204034560000000000000000000000000000000000112040345600000000000000000000000000000000001120403456000000000000000000000000000000000011204034560000000000000000000000000000000000112040345600000000000000000000000000000000001120403456000000000000000000000000000000000011204034560000000000000000000000000000000000112040345600000000000000000000000000000000001120403456107507066300000000000000000000000011204034560000000000000000000000000000000000)
 (.leaf 11204034560000000000000000000000000000004888112001024000000000000000000000000000000000001120403456000000000000000000000000000000000011204034560000000000000000000000000000000000112040345600000000000000000000000000000000001120403456000000000000000000000000000000000011204034560000000000000000000000000000000000112040345600000000000000000000000000000000001120403456000000000000000000000000000000000011204034560000000000000000000000000000000000112040345600000000000000000000000000000000001120403456000000000000000000000000000000000011204034560000000000000000000000000000000000112040345600000000000000000000103426478800001120403456000000000010830928151060876684488911204034560000000000106843015710483723264890))
 (.node 1 (.leaf 11204034560000000000000000000000000000000000112040345600000000001065932869102621801800001120403456000000000000000000000000000000000011204034560000000000000000000010212656734891112040345600000000000000000000000000000048921120403456000000000000000000000000000000000011112284160000000000000000000000000000000000111411200000000000000000000000000000000000001120403456000000000000000000000000000000000011204034560000000000000000000000000000000000112040345600000000000000000000000000000000001120403456105304390700000000001037782643000011204034560000000000109172553210746160354893110913126400000000001092896162000000000000001118175232000000000010248194620000000000000011204034560000000000000000000000000000000000)
 (.leaf 11204034560000000000000000000000000000000000112040345600000000000000000000000000000000001120403456000000000000000000000000000000000011204034560000000000000000000000000000000000112040345600000000000000000000000000000000001120403456000000000000000000000000000000000011204034560000000000000000000000000000000000112040345600000000000000000000000000000000001120403456000000000000000000000000000000000011204034560000000000000000000000000000000000112040345600000000000000000000000000000000001120403456000000000000000000000000000000000011204034560000000000000000000000000000000000112040345600000000000000000000000000000000001120403456000000000000000000000000000000000011204034560000000000000000000000000000000000)))
 (.node 2 (.node 1 (.leaf 11204034560000000000000000000000000000000000112040345600000000000000000000000000000000001120403456000000000000000000000000000000000011204034560000000000000000000000000000000000112040345600000000000000000000000000000000001120403456104995183200000000000000000000000011156848640000000000000000000000000000000000111280128000000000000000000000000000000000001120403456000000000000000000000000000000000011204034560000000000000000000000000000000000112040345600000000000000000000000000000000001120403456000000000000000000000000000000000011204034560000000000000000000000000000000000112040345600000000000000000000000000000000001120403456000000000000000000000000000000000011204034560000000000000000000000000000004894)
 (.leaf 11204034560000000000000000000000000000000000112040345600000000000000000000000000000000001120403456000000000000000000000000000000000011204034560000000000000000000000000000000000112040345600000000000000000000000000000000001120403456000000000000000000000000000000000011204034560000000000000000000000000000000000112040345610782153220000000000103697769400001120403456000000000000000000001018892010000011204034560000000000000000000010380360414895112040345600000000000000000000000000000000001120403456000000000000000000001051771675000011204034560000000000000000000010425697900000112040345600000000000000000000000000000000001120403456000000000000000000000000000000489611204034561095953872107631922410786766504897))
 (.node 1 (.leaf 11204034560000000000102511474100000000000000112040345600000000000000000000000000000000001120403456000000000000000000000000000000489811204034560000000000000000000000000000000000112040345600000000000000000000000000000048991120403456000000000000000000001031005022490011204034560000000000000000000000000000000000110048051200000000000000000000107411694600001117519872000000000000000000000000000000000011204034560000000000000000000000000000000000112040345600000000000000000000000000000000001120403456000000000000000000000000000000000011204034560000000000000000000000000000000000112040345600000000001107529826105631125700001116078080000000000011036614201069537249490110905190400000000000000000000000000000000000)
 (.leaf 11204034560000000000000000000000000000000000112040345600000000000000000000000000000000001120403456000000000000000000000000000000000011204034560000000000000000000000000000000000112040345600000000000000000000000000000000001120403456000000000000000000000000000000000011204034560000000000000000000000000000000000112040345600000000000000000000000000000000001120403456000000000000000000000000000000000011204034560000000000000000000000000000000000112040345600000000000000000000000000000000001120403456000000000000000000000000000000000011204034560000000000000000000000000000000000112040345600000000000000000000000000000000001120403456000000000000000000000000000000000011104419840000000000000000000000000000000000))))))
 (.node 16 (.node 8 (.node 4 (.node 2 (.node 1 (.leaf 11128012800000000000000000000010135820940000111961702400000000000000000000000000000000001120403456000000000000000000000000000000000011204034560000000000000000000000000000000000112040345600000000000000000000000000000000001120403456000000000000000000000000000000000011204034560000000000000000000000000000000000112040345600000000000000000000000000000000001120403456000000000000000000000000000000000011204034560000000000000000000010475136950000112040345600000000001085659310000000000000001120403456000000000000000000000000000000000011204034560000000000000000000000000000000000112040345600000000000000000000101815940600001120403456000000000000000000000000000000000011204034560000000000095326799110593151000000)
 (.leaf 11204034561053293418000000000000000000000000112040345600000000000000000000000000000000001120403456000000000000000000000000000000000011204034560000000000107160776200000000000000112040345600000000000000000000107573173900001120403456000000000000000000001029074947000011204034560000000000000000000000000000000000112040345610489558360000000000000000000000001120403456000000000000000000000000000000000011204034560000000000000000000000000000000000112040345600000000000000000000000000000000001120403456000000000000000000001011150464490211204034560000000000000000000000000000000000112040345600000000000000000000103007939349031120403456000000000000000000000000000000490411204034560000000000000000000000000000000000))
 (.node 1 (.leaf 11204034560000000000000000000000000000000000112040345600000000000000000000000000000000001120403456000000000000000000000000000000000011204034560000000000000000000000000000000000112040345600000000000000000000000000000000001120403456000000000010235578160000000000000011204034560000000000110702850210835813084905112040345600000000000000000000000000000000001120403456000000000000000000000000000000000011204034560000000000000000000000000000000000112040345600000000000000000000000000000000001120403456000000000000000000000000000000000011204034560000000000000000000000000000000000112040345600000000000000000000000000000000001120403456000000000000000000000000000000000011204034560000000000000000000000000000000000)
 (.leaf 11204034560000000000000000000000000000000000112040345600000000000000000000000000000000001120403456000000000000000000000000000000000011204034560000000000000000000000000000000000112040345610300397260000000000000000000000001093664768000000000000000000000000000000000011004805120000000000000000000000000000000000112040345600000000000000000000000000000000001120403456000000000000000000000000000000000011204034560000000000000000000000000000000000112040345600000000000000000000000000000000001120403456000000000000000000000000000000000011204034560000000000000000000000000000000000112040345600000000000000000000000000000000001120403456000000000000000000000000000000000011204034560000000000104104638510662073110000)))
 (.node 2 (.node 1 (.leaf 11204034560000000000000000000010389321220000112040345610561663150000000000000000000000001120403456000000000000000000000000000000000011204034560000000000000000000010342502060000112040345600000000000000000000103126485400001120403456000000000000000000000000000000000011204034560000000000000000000010299071910000112040345600000000000000000000000000000049061120403456000000000000000000000000000000000011204034560000000000000000000010318454104907112040345610826809911056249899000000000049081120403456000000000000000000000000000000490911204034560000000000000000000010201828634910111044198400000000000000000000106838197200001120010240000000000000000000000000000000000011204034560000000000000000000000000000000000)
 (.leaf 11204034560000000000000000000000000000000000112040345600000000000000000000000000000000001120403456000000000000000000000000000000000011204034560000000000000000000000000000000000112040345600000000001073608445104172503300001110441984000000000010940415211067055222000011204034560000000000110837450710464934250000112040345600000000000000000000000000000000001120403456000000000000000000000000000000000011204034560000000000000000000000000000000000112040345600000000000000000000000000000000001120403456000000000000000000000000000000000011204034560000000000000000000000000000000000112040345600000000000000000000000000000000001120403456000000000000000000000000000000000011204034560000000000000000000000000000000000))
 (.node 1 (.leaf 11204034560000000000000000000000000000000000112040345600000000000000000000000000000000001120403456107364876100000000000000000000000011204034561082655452000000000000000000000000112040345600000000000000000000000000000000001120403456000000000000000000000000000000000011204034560000000000000000000000000000000000112040345600000000000000000000000000000000001120403456000000000000000000000000000000000011204034560000000000000000000000000000000000111607808000000000000000000000000000000000001120403456000000000000000000000000000000000011204034560000000000000000000000000000000000112040345600000000000000000000000000000000001120403456000000000000000000001062093165000011204034560000000000103000026600000000000000)
 (.leaf 11204034560000000000000000000000000000000000112040345600000000000000000000106122047700001120403456000000000000000000000000000000000011204034560000000000107861266900000000000000112040345600000000000000000000105728650200001120403456000000000000000000000000000000000011204034560000000000000000000010403690180000112040345600000000000000000000103439162400001120403456000000000010565820870000000000000011204034560000000000000000000000000000000000112040345610813065070000000000000000000000001120403456107456932700000000000000000000000011204034560000000000000000000000000000000000112040345600000000000000000000103206407900001120403456000000000000000000000000000000000011204034560000000000000000000010324613854911))))
 (.node 4 (.node 2 (.node 1 (.leaf 11204034560000000000000000000000000000000000112040345600000000000000000000000000000000001120403456000000000000000000000000000000000011204034560000000000000000000000000000000000112040345600000000000000000000102712778900001120403456000000000000000000001010811121000011204034560000000000108735947110658724040000112040345600000000000000000000000000000000001120403456000000000000000000000000000000000011204034560000000000000000000000000000000000112040345600000000000000000000000000000000001120403456000000000000000000000000000000000011204034560000000000000000000000000000000000112040345600000000000000000000000000000000001120403456000000000000000000000000000000000011204034560000000000000000000000000000000000)
 (.leaf 11204034560000000000103844256200000000000000112040345600000000000000000000000000000000001120403456000000000000000000000000000000000011204034560000000000000000000000000000000000112040345600000000000000000000000000000000001120403456000000000000000000000000000000000011204034560000000000000000000000000000000000111712665600000000001016887194000000000000001120403456000000000000000000000000000000000011204034560000000000000000000000000000000000112040345600000000000000000000000000000000001120403456000000000000000000000000000000000011204034560000000000000000000000000000000000111896166400000000000000000000000000000000001120403456000000000000000000000000000000000011204034560000000000000000000000000000000000))
 (.node 1 (.leaf 11204034560000000000000000000000000000000000112040345610160679291009303893100926058000001120403456000000000000000000000000000000000011204034560000000000000000000010505727020000112040345600000000000000000000106520932049121120403456000000000000000000001044024599000011204034560000000000105901310610653586620000112040345600000000000000000000000000000000001120403456000000000010337986281048601521000011204034561062792124000000000010668094310000112040345600000000000000000000000000000000001120403456000000000000000000000000000000491311204034560000000000000000000000000000000000112040345600000000000000000000000000000000001120403456000000000000000000001051641295491411204034560000000000000000000000000000004915)
 (.leaf 11204034560000000000000000000000000000004916112040345610535913140000000000000000000049171120403456000000000000000000000000000000491811004805120000000000000000000010490137530000111791308800000000000000000000103368298400001120403456000000000000000000000000000000000011204034560000000000000000000000000000004919112040345600000000000000000000000000000000001120403456000000000000000000000000000000000011204034560000000000000000000000000000000000112040345600000000000000000000000000000000001120403456000000000000000000000000000000000011204034560000000000000000000000000000000000112040345600000000000000000000000000000000001120403456000000000000000000000000000000000011204034560000000000000000000000000000000000)))
 (.node 2 (.node 1 (.leaf 11204034560000000000105473323800000000000000112040345600000000000000000000000000000000001120403456000000000000000000000000000000000011204034560000000000000000000000000000000000112040345600000000000000000000000000000000001120403456000000000000000000000000000000000011204034560000000000000000000000000000000000112040345600000000000000000000000000000000001107558400000000000000000000000000000000000011196170240000000000000000000000000000000000112040345600000000000000000000000000000000001120403456000000000000000000000000000000000011204034561083970047000000000000000000000000112040345600000000000000000000000000000000001120403456000000000000000000000000000000000011204034560000000000000000000000000000000000)
 (.leaf 11204034560000000000000000000000000000000000112040345611013563181037972799104325601900001120403456000000000000000000000000000000000011204034560000000000000000000010455136480000112040345600000000001097718982105750956649201120403456000000000000000000001057434638492111204034560000000000104295227710589168030000112040345600000000000000000000000000000000001120403456000000000000000000000000000000000011204034561039600592000000000010194631784922112040345600000000000000000000000000000000001120403456000000000000000000000000000000000011204034560000000000000000000000000000004923112040345600000000000000000000000000000049241102053376000000000000000000000000000000000011204034560000000000000000000000000000000000))
 (.node 1 (.leaf 11204034560000000000000000000000000000000000112040345600000000000000000000000000000000001120403456000000000000000000000000000000000011204034560000000000000000000000000000000000111634022400000000001111741327107966762500001112801280000000000010959861060000000000492511204034560000000000000000000000000000000000112040345600000000000000000000000000000000001120403456000000000000000000000000000000000011204034560000000000000000000000000000000000112040345600000000000000000000000000000000001120403456000000000000000000000000000000000011204034560000000000000000000000000000000000112040345600000000000000000000000000000000001120403456000000000000000000000000000000000011204034560000000000000000000000000000000000)
 (.leaf 11204034560000000000000000000000000000000000112040345600000000000000000000000000000000001120403456000000000000000000000000000000000011204034560000000000000000000000000000000000112040345600000000001075519370000000000000001120403456000000000000000000000000000000000011204034560000000000000000000000000000000000112040345600000000000000000000000000000000001120403456000000000000000000000000000000000011204034560000000000000000000000000000000000112040345600000000000000000000000000000000001120403456000000000000000000000000000000000011204034560000000000000000000000000000000000112040345600000000000000000000000000000000001086324736000000000000000000000000000000000011204034560000000000000000000000000000000000)))))
 (.node 8 (.node 4 (.node 2 (.node 1 (.leaf 11204034560000000000000000000000000000000000112040345600000000000000000000000000000000001120403456000000000000000000000000000000000011204034560000000000000000000000000000000000111896166400000000000000000000000000000000001120403456000000000000000000000000000000000011204034560000000000000000000000000000000000112040345600000000000000000000000000000000001120403456000000000010723920970000000000000011204034560000000000000000000000000000000000112040345600000000000000000000106142646749261120403456000000000010977377521060783246000011204034561053074139000000000010191759840000112040345600000000001058873855106834048500001120403456000000000000000000001035298300492711204034560000000000000000000000000000000000)
 (.leaf 11204034560000000000000000000010580710464928112040345600000000000000000000000000000000001120403456000000000000000000000000000000000011204034560000000000000000000000000000000000112040345600000000000000000000102522581849291120403456000000000000000000001043793950000011204034560000000000000000000000000000004930112040345600000000000000000000000000000049311120403456000000000000000000000000000000493211204034560000000000000000000000000000000000111607808000000000000000000000102752654949331120403456000000000000000000000000000000000011204034560000000000000000000000000000000000112040345600000000000000000000106621586449341120403456000000000000000000000000000000000011204034560000000000000000000000000000000000))
 (.node 1 (.leaf 11204034560000000000000000000000000000000000112040345600000000000000000000000000000000001120403456000000000000000000000000000000000011204034560000000000000000000000000000000000112040345600000000000000000000000000000000001120403456000000000000000000000000000000000011204034560000000000000000000000000000000000112040345600000000000000000000000000000000001120403456000000000000000000000000000000000011204034560000000000106345739100000000000000112040345600000000000000000000000000000000001120403456000000000000000000000000000000000011204034560000000000000000000000000000000000112040345600000000000000000000000000000000001120403456000000000000000000000000000000000011128012800000000000000000000000000000000000)
 (.leaf 11163402240000000000103000026600000000000000112040345600000000000000000000000000000000001120403456000000000000000000000000000000000011204034560000000000000000000000000000000000112040345600000000000000000000000000000000001120403456000000000000000000000000000000000011204034560000000000000000000000000000000000109943193610693140480000000000000000000000001120403456000000000000000000000000000000000011036262400000000000000000000000000000000000110913126400000000000000000000000000000000001120403456000000000000000000000000000000493511204034560000000000000000000000000000000000112040345600000000000000000000000000000000001120403456000000000010977598771050825911000011204034561032188821000000000010596406980000)))
 (.node 2 (.node 1 (.leaf 11204034560000000000104604599610570035890000112040345600000000001043891801104866238900001120403456000000000000000000000000000000000011204034561099067301105734209510645141570000112040345600000000000000000000103731889500001120403456000000000000000000001045718388000011204034560000000000000000000010180746694936112040345600000000000000000000106548915349371120403456105223833200000000000000000000493811204034560000000000000000000000000000004939112040345600000000000000000000000000000049401120403456000000000000000000000000000000494111204034560000000000000000000010428791084942110362624000000000000000000000106332442000001117126656000000000000000000001045443892000011204034560000000000000000000000000000000000)
 (.leaf 11204034560000000000000000000010154795300000112040345600000000000000000000102699348949431120403456000000000000000000000000000000000011204034560000000000000000000000000000000000112040345600000000000000000000000000000049441120403456000000000000000000000000000000000011204034560000000000000000000000000000000000112040345600000000000000000000000000000000001120403456000000000000000000000000000000000011204034560000000000000000000000000000000000112040345600000000000000000000000000000000001120403456000000000000000000000000000000000011204034560000000000000000000000000000000000112040345600000000001074675057000000000000001120403456000000000000000000000000000000000011204034560000000000000000000000000000000000))
 (.node 1 (.leaf 11204034560000000000000000000000000000000000112040345600000000000000000000000000000000001120403456000000000000000000000000000000000011204034560000000000000000000000000000000000112040345600000000000000000000000000000000001120403456000000000000000000000000000000000011204034560000000000000000000000000000000000112040345600000000000000000000000000000000001120403456000000000000000000000000000000000010905190400000000000000000000000000000000000112040345600000000000000000000000000000000001120403456000000000000000000000000000000000011204034560000000000000000000000000000000000112040345600000000000000000000000000000000001120403456000000000000000000000000000000000011141120001063612060000000000000000000000000)
 (.leaf 11204034561061069993000000000010377101710000112040345600000000001096682989105667744200001120403456106739838400000000001058632902000011204034561052593606000000000010339048490000112040345600000000000000000000000000000000001120403456000000000010411000731049210783000011204034560000000000000000000000000000000000112040345600000000000000000000103555060349451120403456105883625700000000000000000000000011204034560000000000000000000000000000004946112040345600000000000000000000104170709800001120403456000000000000000000001060068016000011204034560000000000000000000000000000000000112040345600000000000000000000104245179900001120403456000000000000000000001015785182494711204034560000000000000000000000000000004948))))
 (.node 4 (.node 2 (.node 1 (.leaf 11204034560000000000000000000000000000000000112040345600000000000000000000103265712549491120403456000000000000000000001011988141000011204034560000000000000000000000000000000000112040345600000000000000000000000000000000001086324736000000000000000000000000000000000011204034560000000000000000000000000000000000112040345610919723930000000000000000000000001120403456109756849100000000000000000000000011204034560000000000000000000000000000000000112040345600000000000000000000000000000000001120403456000000000000000000000000000000000011204034560000000000000000000000000000000000112040345600000000001075757607000000000000001120403456000000000000000000000000000000000011204034560000000000000000000000000000000000)
 (.leaf 11204034560000000000000000000000000000000000112040345600000000000000000000000000000000001120403456000000000000000000000000000000000011204034560000000000000000000000000000000000112040345600000000000000000000000000000000001120403456000000000000000000000000000000000011204034560000000000000000000000000000000000112040345600000000000000000000000000000000001120403456000000000000000000000000000000000011196170240000000000000000000000000000000000112040345600000000000000000000000000000000001120403456000000000000000000000000000000000011204034560000000000102532949000000000000000112040345600000000000000000000000000000000001120403456000000000000000000000000000000000011204034560000000000000000000000000000000000))
 (.node 1 (.leaf 11020533761072558787000000000000000000000000110362624010942225920000000000000000000000001120403456110152871100000000000000000000000011160780800000000000000000000000000000000000112040345600000000000000000000106869785400001120403456000000000000000000001037086948000011204034560000000000000000000010468795224950112040345600000000000000000000000000000000001120403456000000000000000000001042896638000011204034560000000000000000000000000000004951112040345600000000001044985676106780651000001120403456000000000000000000000000000000000011204034560000000000000000000000000000000000112040345600000000000000000000000000000000001120403456000000000000000000000000000000000011204034560000000000000000000000000000000000)
 (.leaf 11204034560000000000000000000010190442424952112040345609794130680000000000102289538049531119354880000000000000000000000000000000000011204034560000000000000000000000000000004954112040345600000000000000000000104352134700001120403456000000000000000000000000000000000011204034560000000000000000000000000000000000112040345600000000000000000000000000000000001120403456000000000010374761940000000000000011204034560000000000000000000000000000000000112040345600000000000000000000000000000000001120403456000000000000000000000000000000000011204034561068912553000000000000000000000000112040345610838147620000000000000000000000001120403456000000000000000000000000000000000011204034560000000000000000000000000000000000)))
 (.node 2 (.node 1 (.leaf 11204034560000000000000000000000000000000000112040345600000000000000000000000000000000001120403456000000000000000000000000000000000011204034560000000000000000000000000000000000112040345600000000000000000000000000000000001120403456000000000000000000000000000000000011204034560000000000000000000000000000000000112040345600000000000000000000000000000000001120403456000000000000000000000000000000000011204034560000000000000000000000000000000000112040345600000000000000000000000000000000001086324736000000000000000000000000000000000011004805120000000000000000000000000000000000112040345600000000000000000000000000000000001120403456000000000000000000000000000000000011204034560000000000000000000000000000000000)
 (.leaf 11204034561092013453000000000000000000000000112040345600000000000000000000000000000000001117913088000000000000000000000000000000000011112284160000000000000000000000000000000000110362624000000000000000000000000000000000001120403456105246170400000000001018592813000011204034560000000000000000000000000000004955112040345600000000000000000000000000000000001120403456000000000000000000001029642513000011204034560000000000000000000010406050664956112040345600000000000000000000000000000000001120403456000000000000000000000000000000000011204034560000000000000000000000000000004957112040345600000000000000000000100932131900001120403456000000000010383486091049277489000011204034561073922586097671582810430431750000))
 (.node 1 (.leaf 11204034560000000000000000000000000000000000112040345610499273711020162107104380855100001120403456000000000000000000000000000000000011204034560000000000000000000000000000004958111358771200000000001066532654105636578649591115684864000000000000000000001069757090000010905190400000000000000000000010358896540000112040345600000000000000000000000000000000001120403456000000000000000000000000000000000011204034560000000000000000000010320571480000111201484800000000000000000000106412121749601102053376000000000000000000001015211763000010968104960000000000000000000010506353920000110048051200000000000000000000000000000000001120403456000000000000000000000000000000000011204034561079624604000000000000000000000000)
 (.leaf 11204034560000000000103348992700000000000000112040345600000000000000000000000000000000001120403456000000000000000000000000000000000011204034560000000000000000000000000000000000112040345600000000000000000000000000000000001120403456000000000000000000000000000000000011204034560000000000000000000000000000000000112040345600000000000000000000000000000000001120403456000000000000000000000000000000000011204034560000000000000000000000000000000000112040345610842708210000000000000000000000001120403456000000000010908017360000000000000011204034560000000000000000000000000000000000112040345600000000000000000000000000000000001120403456000000000000000000000000000000000011204034560000000000000000000000000000000000)))))))
 (.node 32 (.node 16 (.node 8 (.node 4 (.node 2 (.node 1 (.leaf 11204034560000000000000000000000000000000000112040345600000000000000000000000000000000001120403456000000000000000000000000000000000011204034560000000000000000000000000000000000112040345600000000000000000000000000000000001120403456000000000000000000000000000000000011204034560000000000000000000000000000000000112040345600000000000000000000000000000000001120403456000000000000000000000000000000000011204034560000000000000000000000000000000000112040345600000000000000000000000000000000001120403456000000000000000000001052599763000011204034560000000000000000000010179116650000112040345600000000000000000000104054300500001120403456000000000000000000000000000000496111204034560000000000000000000010495479834962)
 (.leaf 11204034560000000000000000000000000000000000112040345600000000000000000000103634792100001120403456000000000000000000000000000000000011204034560000000000000000000000000000004963112040345600000000001069302573108041195200001120403456000000000000000000000000000000000011204034560000000000000000000000000000000000112040345600000000000000000000000000000000001120403456000000000000000000000000000000496411204034560000000000000000000010173464850000112040345600000000000000000000000000000000001120403456106833355400000000001050635090496511171266560000000000000000000010832569364966112040345600000000000000000000000000000000001120403456000000000000000000001029610438000011204034560000000000000000000000000000000000))
 (.node 1 (.leaf 11204034561077559819000000000000000000000000112040345610700631850000000000000000000000001120403456000000000000000000000000000000000011204034560000000000000000000000000000000000112040345600000000000000000000000000000000001120403456000000000000000000000000000000000011204034560000000000000000000000000000000000112040345600000000000000000000000000000000001120403456000000000000000000000000000000000011204034561048844469000000000000000000000000112040345600000000000000000000000000000000001120403456102234878200000000000000000000000011204034560000000000000000000000000000000000112040345600000000000000000000000000000000001120403456000000000000000000000000000000000011204034560000000000000000000000000000000000)
 (.leaf 11204034560000000000000000000000000000000000111673344000000000000000000000104209937200001120403456000000000000000000000000000000496711204034560000000000000000000000000000000000112040345600000000000000000000000000000000001120403456000000000000000000000000000000000011204034560000000000000000000000000000000000112040345600000000000000000000000000000000001120403456000000000000000000000000000000000011204034561048869903000000000000000000000000112040345600000000000000000000000000000000001120403456000000000000000000000000000000000011083448320000000000102209484210224605260000110991769600000000001049988642000000000000001120403456000000000000000000001049416602000011204034560000000000000000000000000000000000)))
 (.node 2 (.node 1 (.leaf 11204034560000000000000000000000000000004968112040345600000000000000000000000000000000001120403456000000000010414289061046760706000011204034560000000000103096663410449401610000111489843200000000000000000000000000000000001120403456000000000000000000001030756203496911204034560000000000000000000000000000000000112040345600000000000000000000102698474949701120403456000000000000000000000000000000000011204034560000000000000000000000000000000000110991769600000000001053703117107069561200001086324736000000000000000000001066035224000011148984320000000000000000000010658562790000112040345600000000000000000000103081754500001120403456000000000000000000000000000000497111204034560000000000000000000010534542154972)
 (.leaf 11204034560000000000000000000000000000000000111201484800000000000000000000103862763300001108344832000000000000000000000000000000000011204034560000000000000000000000000000000000112040345600000000001069378070000000000000001120403456000000000000000000000000000000000011204034560000000000000000000000000000000000112040345600000000000000000000000000000000001120403456000000000000000000000000000000000011204034560000000000000000000000000000000000112040345600000000000000000000000000000000001120403456000000000000000000000000000000000011204034560000000000000000000000000000000000112040345600000000000000000000000000000000001120403456000000000000000000000000000000000011204034560000000000000000000000000000000000))
 (.node 1 (.leaf 11204034560000000000000000000000000000000000112040345600000000000000000000000000000000001120403456000000000000000000000000000000000011204034560000000000000000000000000000000000112040345600000000000000000000000000000000001120403456000000000000000000000000000000000011204034560000000000000000000000000000000000112040345600000000000000000000000000000000001120403456000000000000000000000000000000000011204034560000000000000000000000000000000000112040345600000000000000000000000000000049731120403456000000000000000000000000000000000011204034560000000000000000000000000000000000112040345600000000000000000000000000000000001120403456000000000000000000000000000000000011204034560000000000000000000000000000000000)
 (.leaf 11204034560000000000000000000000000000000000112040345600000000000000000000000000000000001120403456000000000000000000000000000000000011204034561094287644000000000000000000000000112040345600000000000000000000000000000000001120403456000000000000000000000000000000000011204034560000000000000000000000000000000000112040345600000000000000000000000000000000001120403456000000000010853510281032289063000011204034560000000000106281314510441207180000112040345600000000000000000000000000000049741120403456000000000000000000000000000000497511204034560000000000000000000000000000000000112040345600000000000000000000000000000000001120010240000000000000000000000000000000000011204034560000000000000000000000000000000000))))
 (.node 4 (.node 2 (.node 1 (.leaf 11204034560000000000000000000000000000000000112040345600000000000000000000000000000000001120403456000000000000000000000000000000497611204034560000000000000000000010375367274977111961702410673417860000000000106271593949781120403456000000000000000000001039230368497911204034560000000000000000000010458125130000109943193600000000001051616032106559031700001090519040000000000010411806031074527197000010779361280000000000000000000010396912070000109943193600000000000000000000102038313800001113587712000000000000000000001044760445000011075584000000000000000000000010589895124980112040345610700788800000000000000000000000001120403456000000000000000000000000000000000011204034560000000000000000000000000000000000)
 (.leaf 11204034560000000000000000000000000000000000112040345600000000000000000000000000000000001120403456000000000000000000000000000000000011204034560000000000000000000000000000000000112040345600000000000000000000000000000000001120403456000000000000000000000000000000000011204034560000000000000000000000000000000000112040345600000000000000000000000000000000001120403456103390627100000000000000000000000011204034560000000000000000000000000000000000112040345600000000000000000000000000000000001120403456000000000000000000000000000000000011204034560000000000102527580200000000000000112040345600000000000000000000000000000000001120403456000000000000000000000000000000000011204034560000000000000000000000000000000000))
 (.node 1 (.leaf 11204034560000000000000000000000000000000000112040345600000000000000000000000000000000001120403456000000000010825825781048807784000011204034561033457044109659050510507502060000112040345600000000000000000000000000000049811120403456000000000000000000000000000000000011204034560000000000000000000010723948424982112040345600000000000000000000000000000000001099431936000000000000000000000000000000000011204034560000000000000000000000000000000000112040345600000000000000000000103986390600001120403456106701657600000000000000000000000011204034560000000000000000000000000000000000112040345600000000000000000000000000000000001120403456000000000000000000001067283356000011171266560000000000000000000010391566004983)
 (.leaf 11135877120000000000000000000010232267390000112040345600000000000000000000105989622449841120403456000000000000000000001056545123000011167334400000000000106468045010576258040000110913126400000000000000000000000000000000001120403456000000000000000000001044918677498511204034560000000000000000000010451696474986112040345600000000000000000000000000000000001102053376000000000010251415851058228853498710863247360000000000000000000010410997320000112040345610653471261078141649000000000000001120403456000000000000000000000000000000000011204034560000000000000000000000000000000000112040345600000000000000000000000000000000001120403456000000000000000000000000000000000011204034560000000000000000000000000000000000)))
 (.node 2 (.node 1 (.leaf 11204034560000000000000000000000000000000000112040345600000000000000000000000000000000001120403456000000000000000000000000000000000011204034560000000000000000000000000000000000112040345600000000000000000000000000000000001120403456000000000000000000000000000000000011204034560000000000000000000000000000000000112040345600000000000000000000000000000000001120403456000000000000000000000000000000000011204034560000000000000000000000000000000000112040345600000000000000000000000000000000001120403456000000000000000000000000000000000011204034560000000000000000000000000000000000109943193600000000000000000000000000000000001120403456000000000000000000000000000000000011204034560000000000000000000000000000000000)
 (.leaf 11204034560000000000000000000000000000000000112040345600000000000000000000000000000000001120403456000000000000000000000000000000000011204034560000000000000000000000000000000000110205337600000000000000000000000000000000001120010240000000000010777721311046797348000011204034560000000000000000000000000000004988112040345600000000000000000000104329949349891117913088000000000000000000000000000000000011204034560000000000000000000000000000000000112040345600000000000000000000000000000000001120403456000000000000000000000000000000499011204034560000000000000000000000000000004991112040345600000000000000000000000000000049921114112000000000000010252758021068393298000011204034560000000000000000000000000000000000))
 (.node 1 (.leaf 11204034560000000000000000000000000000000000111935488000000000000000000000000000000000001112014848000000000000000000001028977379000011204034560000000000000000000010197060220000111856844800000000000000000000107782547349931108344832109107757410717671460000000000000011196170241090401899107199196010442826070000112040345600000000001045254111000000000000001120403456000000000000000000000000000000000011204034560000000000000000000000000000000000112040345600000000000000000000000000000000001120403456000000000000000000000000000000000011204034560000000000000000000000000000000000112040345600000000000000000000000000000000001120403456000000000000000000000000000000000011204034560000000000000000000000000000000000)
 (.leaf 11204034560000000000000000000000000000000000112040345600000000000000000000000000000000001120403456000000000000000000000000000000000011204034560000000000000000000000000000000000112040345600000000000000000000000000000000001120403456000000000000000000000000000000000011204034560000000000000000000000000000000000112040345600000000000000000000000000000000001120403456000000000000000000000000000000000011204034560000000000000000000000000000000000112040345600000000000000000000000000000000001120403456000000000000000000000000000000000011204034560000000000000000000000000000000000112040345600000000000000000000000000000000001120403456000000000000000000000000000000000011204034560000000000000000000000000000000000)))))
 (.node 8 (.node 4 (.node 2 (.node 1 (.leaf 11204034560000000000000000000000000000000000112040345600000000000000000000000000000000001120403456000000000000000000000000000000000011204034560000000000000000000000000000000000112040345600000000000000000000000000000000001120403456000000000000000000000000000000000011204034560000000000000000000000000000000000110991769600000000001060502923000000000000001120403456000000000000000000000000000000000011204034560000000000000000000000000000000000112040345600000000000000000000000000000049941120403456000000000000000000000000000000499511204034560000000000000000000000000000000000112040345600000000000000000000000000000000001120403456000000000000000000001050829173000011204034560000000000000000000000000000000000)
 (.leaf 11204034560000000000000000000000000000000000112040345600000000000000000000105112593449961120403456000000000000000000000000000000000011204034560000000000000000000010584681970000110991769600000000001040771239105090479400001120403456000000000000000000000000000000000011204034560000000000000000000010635063200000112040345600000000000000000000000000000000001120403456000000000000000000000000000000000011204034560000000000000000000000000000000000112040345600000000000000000000000000000000001120403456000000000000000000000000000000000011204034560000000000000000000000000000000000112040345600000000000000000000000000000000001120403456000000000000000000000000000000000011204034560000000000000000000000000000000000))
 (.node 1 (.leaf 11204034560000000000000000000000000000000000112040345600000000000000000000000000000000001120403456000000000000000000000000000000000011204034560000000000000000000000000000000000112040345600000000000000000000000000000000001120403456000000000000000000000000000000000011204034560000000000000000000000000000000000112040345600000000000000000000000000000000001120403456000000000000000000000000000000000011083448320000000000000000000000000000000000111673344000000000000000000000000000000000001120403456000000000000000000000000000000000011204034560000000000000000000000000000000000111358771200000000000000000000000000000000001120403456000000000000000000001051718848499711204034560000000000000000000010495871370000)
 (.leaf 11204034560000000000000000000000000000000000112040345610467311770000000000102180003949981120403456000000000000000000001031431005000011204034560000000000000000000000000000000000112040345600000000000000000000000000000000001120403456107124945100000000001016713396000010936647680000000000000000000000000000000000111673344000000000000000000000105442045749991120403456000000000000000000000000000000500011204034560000000000000000000010583025435001112040345600000000000000000000107306093700001120403456000000000000000000001068597515500210968104960000000000098015180200000000000000112040345600000000000000000000000000000000001120403456000000000000000000000000000000000010994319360000000000000000000010554057290000)))
 (.node 2 (.node 1 (.leaf 11204034560000000000000000000000000000000000112040345600000000001065582225000000000000001120403456000000000000000000000000000000000011204034560000000000000000000000000000000000112040345600000000000000000000000000000000001120403456000000000000000000000000000000000011204034560000000000000000000000000000000000112040345600000000000000000000000000000000001120403456000000000000000000000000000000000011204034560000000000000000000000000000000000112040345600000000000000000000000000000000001120403456000000000000000000000000000000000011204034560000000000000000000000000000000000112040345600000000000000000000000000000000001120403456000000000000000000000000000000000011204034560000000000000000000000000000000000)
 (.leaf 11204034560000000000000000000000000000000000112040345600000000000000000000000000000000001120403456000000000000000000000000000000000011204034560000000000000000000000000000000000112040345600000000000000000000000000000000001120403456000000000000000000000000000000000011204034560000000000000000000000000000000000112040345600000000000000000000000000000000001120403456000000000000000000000000000000000011204034560000000000000000000000000000000000112040345600000000000000000000000000000000001120403456000000000000000000000000000000000011204034560000000000000000000000000000000000111607808000000000000000000000000000000000001120403456000000000000000000000000000000000011204034560000000000000000000000000000000000))
 (.node 1 (.leaf 11204034560000000000000000000000000000000000112040345600000000000000000000000000000000001120403456000000000000000000000000000000000011204034560000000000000000000000000000000000112040345600000000000000000000106529581750031120403456000000000000000000000000000000000011204034560000000000000000000000000000000000112040345600000000000000000000102332829250041120403456000000000000000000000000000000000011204034560000000000000000000000000000000000112040345600000000000000000000105543526500001116078080000000000000000000000000000000000011204034560000000000000000000000000000000000112040345600000000000000000000000000000000001120403456000000000000000000000000000000500511204034560000000000000000000010576890375006)
 (.leaf 11128012800000000000000000000010588222350000112040345600000000000000000000000000000050071120403456000000000000000000000000000000000011204034560000000000000000000010672312480000111489843200000000001035972955105986510600001120403456000000000000000000001032115239000011204034560000000000000000000000000000005008111712665600000000000000000000101847268900001120403456000000000000000000000000000000000011204034560000000000000000000000000000000000112040345600000000000000000000000000000000001120403456000000000000000000000000000000000011204034561084497253000000000000000000000000112040345610610564370000000000000000000000001120403456000000000000000000000000000000000011204034560000000000000000000000000000000000))))
 (.node 4 (.node 2 (.node 1 (.leaf 11204034560000000000000000000000000000000000112040345600000000000000000000000000000000001120403456000000000000000000000000000000000011204034560000000000000000000000000000000000112040345600000000000000000000000000000000001120403456000000000000000000000000000000000011204034560000000000000000000000000000000000112040345600000000000000000000000000000000001120403456000000000000000000000000000000000011204034561026621201000000000010173019140000112040345610367048450000000000101293404850091120403456000000000000000000000000000000000011189616640000000000000000000000000000000000112040345600000000000000000000000000000000001120403456000000000000000000000000000000000011204034560000000000000000000000000000000000)
 (.leaf 11204034560000000000000000000000000000000000112040345600000000000000000000000000000000001113587712000000000000000000000000000000000011112284160000000000000000000010693653590000112040345600000000000000000000102731723250101120403456000000000000000000000000000000000011204034560000000000000000000000000000000000111607808000000000000000000000000000000000001120403456000000000000000000000000000000000011204034560000000000000000000000000000005011112040345600000000000000000000000000000050121111228416000000000000000000001030623664501311067719680000000000103315438310110352350000112040345600000000000000000000000000000000001120403456000000000000000000001036930955501411204034560000000000000000000000000000005015))
 (.node 1 (.leaf 11204034560000000000000000000010584277420000109051904000000000000000000000107461894100001120403456000000000000000000001062730652000011204034561054485841104965980810649196285016112040345600000000000000000000000000000050171120403456000000000000000000000000000000000011204034560000000000000000000000000000000000112040345600000000000000000000000000000000001120403456000000000000000000000000000000000011204034560000000000000000000000000000000000112040345600000000000000000000000000000000001120403456000000000000000000000000000000000011204034560000000000000000000000000000000000112040345600000000000000000000000000000000001120403456000000000000000000000000000000000011204034560000000000102924864710160148180000)
 (.leaf 11204034560000000000000000000000000000000000112040345600000000000000000000000000000000001120403456000000000000000000000000000000000011204034560000000000000000000000000000000000112040345600000000000000000000000000000000001102053376000000000000000000000000000000000011204034560000000000000000000000000000005018112040345600000000000000000000000000000000001120403456000000000000000000000000000000000011204034560000000000000000000000000000000000112040345600000000000000000000000000000000001120403456000000000000000000000000000000000011204034560000000000000000000000000000000000109681049600000000000000000000105098195600001120403456000000000000000000000000000000501911204034560000000000000000000010577086660000)))
 (.node 2 (.node 1 (.leaf 11204034560000000000000000000010381896215020112040345600000000000000000000000000000050211120403456000000000000000000000000000000000011193548800000000000000000000010599497480000112040345600000000000000000000000000000000001120403456000000000000000000001019330977000011204034560000000000000000000000000000000000112040345610553356750000000000000000000000001096810496000000000000000000000000000000000011128012800000000000000000000000000000000000111817523200000000000000000000000000000000001120403456000000000000000000000000000000502211148984320000000000000000000010567690835023112040345600000000000000000000104968757800001111228416000000000000000000000000000000502410905190400000000000000000000000000000000000)
 (.leaf 10968104960000000000000000000000000000000000109943193610495456220000000000000000000000001120403456000000000000000000000000000000000011204034560000000000000000000000000000000000112040345600000000000000000000000000000000001120403456000000000000000000000000000000000011204034560000000000000000000000000000000000112040345600000000000000000000000000000000001120403456000000000000000000000000000000000011204034560000000000000000000000000000000000112040345600000000000000000000000000000000001120403456000000000000000000000000000000000011204034560000000000000000000000000000000000112040345600000000000000000000000000000000001120403456000000000000000000000000000000000011204034561093500382000000000000000000000000))
 (.node 1 (.leaf 11204034560000000000000000000000000000000000112040345600000000000000000000000000000000001120403456000000000000000000000000000000000011204034560000000000000000000000000000000000112040345600000000000000000000000000000000001120403456000000000000000000000000000000000011204034560000000000000000000000000000000000112040345600000000000000000000000000000000001120403456000000000000000000000000000000000011204034560000000000000000000000000000000000112040345600000000000000000000000000000000001120403456000000000000000000000000000000000011204034560000000000000000000000000000000000112040345600000000000000000000000000000000001120403456000000000000000000000000000000000011204034560000000000000000000000000000000000)
 (.leaf 11204034560000000000000000000000000000000000109681049600000000000000000000000000000000001086324736000000000000000000001041318888000011204034560000000000109303656610241668175025112040345600000000000000000000104350040100001120403456000000000000000000001043440153502611004805120000000000000000000000000000000000112040345600000000000000000000000000000000001120403456000000000000000000001024456758502711204034560000000000000000000000000000000000112040345600000000000000000000000000000050281120403456000000000000000000000000000000000011204034560000000000000000000010432966100000112040345600000000000000000000103962680500001120403456107047649100000000001063923831000011204034560000000000000000000010309641630000))))))
 (.node 16 (.node 8 (.node 4 (.node 2 (.node 1 (.leaf 11204034560000000000000000000000000000000000112040345600000000000974997842000000000000001120403456000000000000000000000000000000000011204034560000000000000000000000000000000000112040345600000000000000000000000000000000001120403456000000000000000000000000000000000011204034561082287637000000000000000000000000112040345610879535980000000000000000000000001120403456108502147800000000000000000000000011204034560000000000000000000000000000000000112040345600000000000000000000000000000000001120403456000000000000000000000000000000000011204034560000000000000000000000000000000000112040345600000000000000000000000000000000001120403456000000000000000000000000000000000011204034560000000000000000000000000000000000)
 (.leaf 11099176960000000000000000000000000000000000112040345600000000000000000000000000000050291120403456000000000000000000000000000000000011204034560000000000000000000000000000000000112040345600000000000000000000000000000000001120403456000000000000000000000000000000000011204034560000000000000000000000000000000000112040345600000000000000000000000000000000001120403456000000000010927811330000000000503011204034560000000000000000000010582608190000112040345610536128561021611658104046507300001120403456000000000000000000001025015609000011204034560000000000000000000000000000005031112040345600000000000000000000104687651800001100480512000000000000000000001040954187000011204034560000000000000000000000000000000000))
 (.node 1 (.leaf 11204034561057241248000000000000000000005032112040345610185939070000000000000000000000001120403456000000000000000000001060785542000011204034560000000000000000000010549085300000112040345600000000000000000000000000000000001120403456000000000000000000000000000000000011204034560000000000000000000000000000000000112040345600000000000000000000000000000000001120403456000000000000000000000000000000000011204034561099739732000000000000000000000000112040345600000000000000000000000000000000001120403456000000000000000000000000000000000011204034560000000000000000000000000000000000112040345600000000000000000000000000000000001120403456000000000000000000000000000000000011204034560000000000000000000000000000000000)
 (.leaf 11204034560000000000000000000000000000000000112040345600000000000000000000000000000000001118568448000000000000000000000000000000000011204034560000000000000000000000000000000000112040345600000000000000000000000000000000001120403456000000000000000000000000000000000011204034560000000000000000000000000000000000112040345600000000000000000000000000000000001120403456000000000000000000000000000000000011204034560000000000000000000000000000000000112040345600000000000000000000000000000000001113587712106111332800000000000000000000000011204034560000000000000000000010318455175033112040345600000000000000000000106100863100001120403456000000000000000000001043115001503411193548800000000000000000000010498281185035)))
 (.node 2 (.node 1 (.leaf 11075584000000000000000000000010359399180000112040345610184532470000000000105870432750361118175232105713575200000000001031086199000011204034560000000000000000000000000000000000112040345600000000000000000000000000000000001116733440000000000000000000001062791007000010863247360000000000000000000010575829155037111935488000000000000000000000000000000000001120403456000000000000000000000000000000000011204034560000000000000000000010339994750000112040345600000000000000000000103287530200001120403456000000000000000000000000000000000011204034560000000000000000000010298125040000112040345610571644410000000000105802266000001120403456000000000000000000000000000000000011204034560000000000000000000000000000000000)
 (.leaf 11204034560000000000000000000000000000000000112040345600000000000000000000000000000000001120403456000000000000000000000000000000000011204034561087055596104411997110233916480000112040345600000000000000000000000000000000001120403456108654168000000000000000000000000011204034561085352190000000000000000000000000112040345610857372500000000000000000000000001120403456000000000000000000000000000000000011204034560000000000000000000000000000000000112040345600000000000000000000000000000000001120403456000000000000000000000000000000000011204034560000000000000000000000000000000000110048051200000000000000000000000000000000001117126656000000000000000000000000000000000011204034560000000000000000000000000000000000))
 (.node 1 (.leaf 11204034560000000000000000000000000000000000112040345600000000000000000000000000000000001107558400000000000000000000001063071933000011204034560000000000000000000010415683155038112040345611177349771044146815105075207300001120403456104762620800000000001037227063000011204034560000000000000000000000000000000000112040345600000000000000000000100780983150391116733440000000000000000000001062199178000010863247360000000000000000000010337168210000112040345600000000000000000000000000000050401120403456000000000000000000000000000000000011091312640000000000000000000010750829500000111634022400000000000000000000105550575100001120403456000000000000000000000000000000000011204034560000000000000000000000000000005041)
 (.leaf 11204034560000000000000000000000000000000000112040345610701522971066424441107622158100001120403456000000000000000000000000000000000011204034560000000000000000000000000000000000112040345600000000000000000000000000000000001120403456000000000000000000000000000000000011204034560000000000000000000000000000000000112040345600000000000000000000000000000000001120403456000000000000000000000000000000000011204034560000000000000000000000000000000000112040345600000000000000000000000000000000001120403456000000000000000000000000000000000011204034560000000000000000000000000000000000112040345600000000000000000000000000000000001120403456000000000000000000000000000000000011204034560000000000000000000000000000000000))))
 (.node 4 (.node 2 (.node 1 (.leaf 11204034560000000000000000000000000000000000110913126400000000000000000000000000000000001109131264000000000000000000000000000000000011204034560000000000000000000000000000000000112040345600000000000000000000000000000000001096810496000000000000000000001062812057000011204034560000000000000000000010606017345042112040345600000000000000000000102555723550431118175232111799873310182556731068078977000011204034560000000000000000000000000000000000112040345600000000000000000000000000000050441096810496000000000000000000001048589396000011135877120000000000000000000000000000000000112040345600000000000000000000000000000050451120403456100536487100000000000000000000504611185684480996177399106613335700000000000000)
 (.leaf 11175198721077566878107577102810742538875047109943193610536639591068374793105854496700001120403456000000000000000000000000000000000011204034560000000000108343779700000000000000112040345600000000001084426184000000000000001120403456000000000010407108410000000000000011204034560000000000000000000000000000000000112040345600000000000000000000000000000000001120403456110066355510868376991091752815504811204034560000000000000000000000000000000000112040345600000000000000000000000000000000001120403456109053628700000000000000000000000011204034560000000000000000000000000000000000112040345600000000000000000000000000000000001120403456000000000000000000000000000000000011204034560000000000000000000000000000000000))
 (.node 1 (.leaf 11204034560000000000000000000000000000000000112040345600000000000000000000000000000000001120403456000000000000000000000000000000000011179130880000000000000000000000000000000000112040345600000000001056320363000000000000001120403456000000000000000000000000000000000011091312640000000000000000000000000000000000112040345600000000000000000000000000000050491120403456000000000000000000000000000000000011204034560000000000000000000000000000000000112040345600000000000000000000105806756300001120403456000000000000000000001036556269000011204034560000000000000000000000000000000000112040345600000000000000000000000000000050501120403456000000000000000000000000000000505111204034561067907103000000000000000000000000)
 (.leaf 11204034560000000000000000000000000000000000112040345600000000000000000000000000000000001120403456108266474900000000000000000000000011204034561074069076108395956810737829420000112040345610254022360000000000000000000000001120403456000000000010401941031050415519000011204034560000000000000000000000000000000000112040345600000000000000000000000000000000001120403456000000000000000000000000000000000011204034560000000000000000000000000000000000112040345600000000000000000000000000000000001120403456000000000000000000000000000000000011204034560000000000000000000000000000000000112040345600000000000000000000000000000000001120403456000000000000000000000000000000000011204034560000000000000000000000000000000000)))
 (.node 2 (.node 1 (.leaf 11204034560000000000000000000000000000000000112040345600000000000000000000000000000000001120403456000000000000000000000000000000000011163402240000000000000000000000000000000000112040345600000000000000000000000000000000001120403456000000000000000000000000000000000010994319360000000000000000000000000000000000110048051200000000000000000000105726662200001120403456000000000000000000001042597458000011204034560000000000000000000010520118140000112040345610954774520000000000000000000050521116733440000000000000000000001067965170000010863247360000000000000000000000000000000000112040345600000000001083943839102295091200001118175232105747619600000000001065040462000011204034560000000000000000000000000000000000)
 (.leaf 11204034560000000000000000000000000000005053112040345600000000000000000000000000000050541120403456000000000000000000000000000000000011204034560000000000000000000000000000000000112040345600000000000000000000000000000000001120403456000000000000000000000000000000000011204034561059615089000000000000000000000000112040345600000000000000000000000000000000001120403456000000000000000000000000000000000011204034561069454750104751568010385590200000112040345600000000000000000000000000000000001120403456000000000000000000000000000000000011204034560000000000000000000000000000000000112040345600000000000000000000000000000000001120403456000000000000000000000000000000000011204034560000000000000000000000000000000000))
 (.node 1 (.leaf 11204034560000000000108052653000000000000000112040345600000000000000000000000000000000001120403456000000000000000000000000000000000011204034560000000000000000000000000000000000112040345600000000000000000000000000000000001120403456000000000000000000000000000000000011204034560000000000000000000000000000000000112040345600000000000000000000000000000000001120403456000000000000000000000000000000000011204034560000000000000000000000000000000000112040345600000000000000000000000000000000001093664768000000000000000000000000000000000011204034560000000000000000000000000000000000112040345600000000000000000000000000000000001120403456000000000000000000000000000000000011204034560000000000000000000000000000000000)
 (.leaf 11179130880000000000000000000000000000000000109681049600000000000000000000000000000000001114112000000000000000000000001070303255505511204034560000000000000000000010749592470000112040345600000000000000000000103043705900001120403456107432411500000000000000000000000011204034560000000000000000000000000000005056111489843210374300230000000000106821903200001120403456104321420300000000000000000000000011204034560000000000000000000010490505625057112040345600000000000000000000105605154300001117913088107564430210455359681044059279505811204034560000000000000000000000000000000000112040345600000000000000000000000000000000001120403456000000000000000000000000000000000011204034560000000000000000000000000000000000)))))
 (.node 8 (.node 4 (.node 2 (.node 1 (.leaf 11204034560000000000105870943800000000000000112040345600000000000000000000000000000000001120403456000000000000000000000000000000000011204034560000000000107702638310697228935059112040345600000000000000000000000000000000001120403456000000000000000000000000000000000011204034560000000000000000000000000000000000112040345600000000000000000000000000000000001120403456000000000000000000000000000000000011204034560000000000000000000000000000000000112040345600000000000000000000000000000000001120403456000000000000000000000000000000000011204034561031931525000000000000000000000000112040345600000000000000000000000000000000001120403456000000000000000000000000000000000010905190400000000000000000000000000000000000)
 (.leaf 11204034560000000000000000000000000000000000112040345600000000000000000000000000000000001093664768000000000000000000001063917688000011204034560000000000109787102600000000000000112040345600000000001097805070000000000000001120403456000000000010771102700000000000000011193548801064324370000000000000000000000000112040345600000000000000000000000000000000001120403456109992088600000000000000000000506011204034560000000000000000000000000000000000112040345600000000000000000000100343757850611099431936000000000000000000000000000000000011104419840000000000000000000010351558530000112040345600000000000000000000000000000000001120403456000000000000000000000000000000000011204034560000000000000000000000000000000000))
 (.node 1 (.leaf 11204034561069346386103253698200000000000000112040345610433709691016887194000000000000001120403456000000000000000000000000000000000011204034561099032015104261673310481908080000112040345600000000001053243421103954032800001120403456000000000000000000000000000000000011204034560000000000000000000010173908240000112040345600000000001074227524000000000000001120403456000000000000000000000000000000000011204034560000000000000000000000000000000000112040345600000000000000000000000000000000001120403456103347905600000000000000000000000011204034560000000000000000000000000000000000112040345600000000000000000000000000000000001120403456000000000000000000000000000000000011204034560000000000000000000000000000000000)
 (.leaf 11204034560000000000000000000000000000000000111044198400000000000000000000000000000000001120403456000000000000000000000000000000000011200102400000000000000000000000000000000000112040345600000000001090950319103386375350621120403456000000000010975110501010945658506311204034560000000000000000000000000000000000112040345600000000000000000000101706211400001120403456112008239300000000000000000000000011204034560000000000000000000000000000005064112040345611067927240000000000000000000000001113587712000000000010574545031075840736000010936647680000000000000000000009894616890000110834483210652101401073896174101201711500001120403456000000000000000000000000000000000011204034560000000000000000000000000000000000)))
 (.node 2 (.node 1 (.leaf 11204034560000000000000000000000000000000000112040345600000000000000000000000000000000001120403456000000000010728417260000000000000011204034561091526326110412740710284987940000112040345600000000000000000000000000000000001120403456108212221500000000000000000000000011204034560000000000102338333200000000000000112040345600000000000000000000000000000000001120403456000000000000000000000000000000000010905190400000000000000000000000000000000000111044198400000000000000000000000000000000001120403456000000000000000000000000000000000011204034560000000000109774928610493400640000111607808000000000001074569780106248334150651119354880000000000000000000001057624248000011204034560000000000000000000000000000005066)
 (.leaf 11204034561027650382000000000000000000005067111751987210497976161030027110107020529600001120403456000000000000000000000000000000000011204034561034048139000000000000000000000000112040345610652151061048166636000000000000001120403456107645433110824940780000000000000011204034561065476151105735216210310467730000112040345600000000000000000000000000000000001120403456000000000000000000000000000000000011204034561076999972108898518300000000000000112040345600000000000000000000000000000000001120403456000000000000000000000000000000506811204034560000000000107654571600000000000000112040345600000000001084973751000000000000001120403456000000000010980997200000000000000011204034560000000000108558255400000000000000))
 (.node 1 (.leaf 11204034560000000000000000000000000000000000112040345600000000000000000000000000000000001120403456000000000000000000000000000000000011204034560000000000000000000000000000000000112040345600000000000000000000104931425700001120403456107136079300000000000000000000000011204034560000000000000000000000000000000000111817523200000000000000000000000000000000001117519872000000000010210747880000000000000011067719681065552076000000000010152931680000112040345600000000001092633913107669855750691120403456000000000010762915411050327813000011204034560000000000107567497910450420730000111634022400000000000000000000000000000000001116340224000000000000000000001057020126000011204034561084294429000000000000000000000000)
 (.leaf 11204034561086628374000000000000000000000000112040345610557944980000000000105233861050701120403456105558984900000000000000000000000011204034561071704860101381360810652945490000112040345600000000000976715828000000000000001120403456000000000000000000000000000000000011204034560000000000000000000000000000000000112040345600000000000000000000000000000000001120403456000000000010745219650000000000000011204034560000000000107201377100000000005071112040345610473887770000000000000000000000001120403456000000000000000000000000000000507211204034560000000000000000000000000000005073112040345610574907921044878302000000000050741120403456000000000000000000000000000000000011204034561059456125109160567910359630920000))))
 (.node 4 (.node 2 (.node 1 (.leaf 11204034560000000000109538621510106153700000112040345600000000001094393948000000000000001120403456000000000000000000000000000000000011204034560000000000000000000000000000000000112040345600000000000000000000000000000000001120403456000000000000000000000000000000000011204034560000000000000000000000000000000000112040345600000000000000000000000000000000001120403456000000000000000000000000000000000011204034560000000000000000000000000000000000111961702400000000001085833373105008323700001111228416000000000000000000001076225623000011204034560000000000000000000000000000000000112040345610880214850000000000000000000000001120403456000000000000000000001040841472507511128012800000000000000000000010585385210000)
 (.leaf 11204034561031838512103991895700000000005076111411200010746902611080819293103887040450771120403456000000000000000000000000000000000011204034561099225889108157133110287759060000112040345600000000000000000000103268794200001120403456000000000000000000000000000000000011204034560000000000000000000000000000000000112040345600000000001068280001000000000000001120403456105804762810694720230000000000000011204034561116950370000000000000000000000000112040345600000000001096033396105425723500001120403456111047428100000000000000000000000011204034560000000000000000000000000000000000112040345600000000000000000000000000000000001120403456000000000000000000000000000000000011204034560000000000000000000000000000000000))
 (.node 1 (.leaf 11204034560000000000108350008200000000000000112040345600000000000000000000000000000000001120403456108076679210585148230000000000507811204034560000000000000000000000000000000000112040345600000000001062276275107183216100001117519872000000000000000000000000000000000010968104960000000000000000000010627463690000112040345600000000000000000000104531521700001120403456000000000000000000001058346049000011204034560000000000000000000000000000000000112040345600000000000000000000000000000050791108344832107314320510343220771044942560000011204034560000000000000000000000000000000000110755840000000000000000000000108285277900001107558400000000000000000000000000000000000011156848640000000000000000000000000000000000)
 (.leaf 11204034560000000000000000000000000000000000112040345610806482400000000000000000000000001120403456108310761500000000000000000000508011204034560000000000000000000000000000000000112040345610717884781053223289000000000000001120403456108585015910587698361046931971000011204034561044919037103613401700000000000000112040345600000000000000000000000000000050811120403456107097133510648079561041035845000011204034561092967167101661875910267700820000112040345610879395221094798488000000000000001120403456110999491211103044370000000000000011204034560000000000110428149500000000000000112040345610935882970000000000000000000000001120403456109729321010694082690000000000000011204034561074541300108479087900000000000000)))
 (.node 2 (.node 1 (.leaf 11204034560000000000000000000000000000000000112040345600000000000000000000000000000000001120403456000000000000000000000000000000000011204034560000000000000000000010403258290000112040345600000000000000000000000000000000001120403456000000000000000000000000000000508211204034560000000000000000000000000000000000112040345600000000000000000000000000000000001118961664000000000000000000000000000000000011148984320000000000106610148000000000000000112040345600000000000000000000000000000000001112014848000000000000000000001064033224000011204034560000000000000000000000000000005083112040345611075330921053847401107118600000001120403456000000000000000000000000000000000011204034560000000000000000000010695511875084)
 (.leaf 11120148480000000000000000000000000000000000109943193600000000000000000000105530071300001120403456000000000000000000000000000000000011204034560000000000000000000000000000005085112040345600000000000000000000000000000000001120403456000000000000000000000000000000000011204034561070306295000000000000000000000000112040345600000000000000000000000000000000001120403456000000000000000000000000000000000011204034560000000000000000000000000000000000112040345600000000000000000000000000000000001120403456000000000000000000000000000000000011204034560000000000000000000000000000000000112040345610433917730000000000000000000000001120403456108302232310727813280000000000000011204034561058633169000000000000000000000000))
 (.node 1 (.leaf 11204034561045836549108333545600000000000000112040345600000000000000000000000000000000001120403456109771543610905098130000000000508611204034561114144373101263249210187349580000112040345611013242480000000000000000000000001120403456000000000000000000000000000000000011204034560000000000000000000000000000000000112040345600000000001090967411000000000000001120403456000000000000000000000000000000000011141120000000000000000000000000000000000000112040345600000000000000000000000000000000001100480512000000000000000000000000000000000011204034560000000000000000000010536969985087112040345600000000000000000000103381476600001093664768000000000000000000000000000000000011204034561114692652000000000010185861620000)
 (.leaf 10994319360000000000000000000000000000000000111856844810990020621058130625105079001000001107558400109399810110637509921064386762000010779361280000000000000000000010680064240000112040345600000000000000000000000000000000001120403456000000000000000000000000000000000011204034560000000000000000000000000000005088112040345600000000000000000000000000000050891119354880000000000000000000000966777364509011200102400000000000000000000000000000005091110362624000000000000000000000000000000000001116733440109684056811003468711076141068000011204034560000000000000000000000000000000000112040345600000000000000000000000000000000001120403456108246779510509650760000000000000011204034560000000000104208657300000000000000))))))))
 (.node 64 (.node 32 (.node 16 (.node 8 (.node 4 (.node 2 (.node 1 (.leaf 11204034560000000000102884599400000000000000112040345600000000000000000000000000000000001120403456108566527210681332010000000000000011204034560000000000000000000000000000000000112040345600000000001036402452000000000000001120403456000000000010938097860000000000000011204034561107933381108541666900000000000000112040345600000000000000000000000000000000001120403456000000000000000000000000000000000011204034560000000000108699687300000000000000112040345600000000000000000000000000000000001120403456000000000000000000000000000000000011204034560000000000000000000010197129820000112040345600000000000000000000000000000000001120403456000000000000000000000000000000000011204034560000000000000000000000000000000000)
 (.leaf 11193548800000000000000000000000000000000000111817523200000000000000000000000000000000001120403456000000000000000000000000000000000011204034560000000000000000000000000000000000112040345600000000000000000000000000000000001120403456000000000000000000000000000000000011204034561048578886000000000010453547355092109366476810840478791010592383103118279700001115684864111555984800000000001052465131000011091312641032554027107506093310607323860000110834483210677950981078725496102915832500001096810496000000000000000000001033092595000011204034561093582388100801540310166634240000112040345600000000000000000000000000000050931120403456000000000000000000000000000000509411204034560000000000000000000000000000000000))
 (.node 1 (.leaf 11204034560000000000000000000000000000000000111568486411054854661087559539105382266100001103626240108007958110926825670000000000000011204034561043054752106381474500000000005095112040345600000000000000000000000000000000001120403456000000000000000000000000000000000011204034561081434354000000000000000000000000112040345610782277790000000000000000000050961120403456000000000000000000000000000000509711204034561072048760000000000000000000000000112040345600000000000000000000000000000000001120403456000000000000000000000998693453000011204034560000000000000000000010540555260000112040345600000000000000000000000000000000001120403456000000000010744020070000000000000011204034561097379233100930389310655585380000)
 (.leaf 11204034561094134116108761888800000000000000112040345611154032571050894611104276253000001120403456109492145100000000000000000000000011204034560000000000000000000000000000000000112040345600000000000000000000000000000000001120403456000000000010973503030000000000000011204034560000000000000000000000000000000000112040345610166837201050659730000000000050981120403456000000000000000000000000000000000011204034560000000000000000000000000000000000112040345600000000001069378909000000000000001120403456000000000000000000000000000000000011204034560000000000000000000000000000000000111673344000000000000000000000000000000000001109131264000000000000000000001049931686509911204034560000000000109764516210102441400000)))
 (.node 2 (.node 1 (.leaf 11196170240000000000109694114900000000000000112040345611203448311055195383000000000000001108344832000000000010168871941054115588510011204034560000000000000000000000000000000000112040345611015811270000000000000000000000001120403456107541144210724432670000000000000011204034560000000000000000000000000000000000112040345600000000000000000000000000000051011120403456000000000000000000000000000000000011204034560000000000000000000000000000005102112040345600000000000000000000000000000000001116340224000000000010403417421073426789000011204034560000000000000000000010440739375103112040345600000000001046817748000000000000001120403456000000000000000000000000000000000011204034560000000000000000000000000000000000)
 (.leaf 11204034560000000000000000000000000000000000112040345610670105111045348064000000000000001120403456000000000000000000000000000000000011204034560000000000000000000000000000000000112040345600000000000000000000000000000000001120403456000000000000000000000000000000510411204034561093428299106066901710431220900000112040345610836164030000000000102554445500001120403456109520117000000000000000000000000011204034561094874037000000000000000000000000112040345600000000000000000000000000000000001120403456000000000010690651750000000000000011204034560000000000109253933100000000000000112040345610402360461104688919000000000000001120403456000000000000000000000000000000000011204034560000000000000000000000000000005105))
 (.node 1 (.leaf 11204034560000000000000000000000000000000000112040345600000000001084207032000000000000001120403456000000000000000000000000000000000011204034560000000000000000000010545494470000111935488000000000001096249403104168400600001100480512000000000000000000001053097581000011075584000000000000101688719410489657780000112040345600000000000000000000000000000000001120403456000000000000000000000000000000000011204034560000000000000000000000000000005106112040345610703751740000000000000000000051071120403456110756830200000000000000000000510811204034560000000000000000000000000000000000112040345600000000000000000000000000000000001120403456000000000000000000000000000000000011204034560000000000000000000000000000000000)
 (.leaf 11204034560000000000000000000000000000000000112040345600000000000000000000000000000000001120403456000000000000000000000000000000000011204034560000000000106091228710584676600000112040345600000000001085224151106256861400001120403456000000000010134914860000000000000011204034560000000000000000000000000000005109112040345600000000000000000000000000000000001120403456000000000010969505860000000000000011204034561075168651000000000000000000000000112040345610904990980000000000000000000000001120403456000000000000000000000000000000000011204034561085938770109474448700000000000000112040345600000000000000000000000000000000001120403456000000000000000000001019499604511011204034560000000000000000000000000000000000))))
 (.node 4 (.node 2 (.node 1 (.leaf 11204034560000000000000000000000000000000000112040345600000000000000000000000000000000001120403456000000000000000000000000000000000011204034560000000000000000000000000000000000112040345600000000000000000000000000000000001117913088000000000000000000000000000000000011204034560000000000109716522910376268310000109943193600000000001054119192105923227100001120010240000000000000000000001076303982000011204034561080814482000000000010185433690000111280128011127430840000000000000000000000001111228416000000000000000000001015591333000011099176960000000000106419223310421133140000111044198400000000000000000000105990956000001109917696107633393310456836080000000000000011204034560000000000000000000000000000000000)
 (.leaf 11204034561060040962000000000010812195460000112040345600000000000000000000000000000000001120403456109053199310800861280000000000000011204034561095946866106494553000000000000000112040345610971756530000000000000000000000001120403456108401939600000000000000000000000011204034561079868402000000000000000000000000112040345610942166500000000000000000000000001120403456000000000010586708510000000000000011204034560000000000000000000010448267850000112040345600000000000000000000000000000000001120403456000000000000000000000000000000000011204034560000000000000000000000000000000000112040345600000000000000000000000000000051111120403456000000000000000000000000000000511211204034560000000000000000000000000000000000))
 (.node 1 (.leaf 11204034561050312643000000000000000000000000112040345600000000000000000000000000000000001120403456000000000000000000000000000000000011204034560000000000109634859810359533640000112040345600000000000000000000000000000000001120403456000000000000000000000000000000000011204034560000000000000000000000000000000000112040345600000000001084969137000000000000001120403456110252439800000000000000000000000011204034560000000000000000000000000000000000112040345600000000000000000000000000000000001120403456000000000000000000000000000000000011204034560000000000000000000000000000000000112040345600000000000000000000000000000000001120403456000000000000000000000000000000000011075584000000000000107406939910542645640000)
 (.leaf 11112284161059715098000000000010128987940000111673344000000000000000000000000000000000001116078080000000000000000000001046349690511311204034561099364019103773120810574023190000111489843200000000000000000000000000000000001120403456109119892600000000000000000000511411204034560000000000000000000000000000005115112040345600000000000000000000000000000051161120403456111941230210738252910000000000000011204034561097134326101080713110272646730000112040345600000000000000000000000000000000001120403456000000000000000000000000000000000011204034560000000000000000000000000000000000112040345600000000000000000000000000000000001120403456104902432100000000000000000000000011204034560000000000000000000000000000000000)))
 (.node 2 (.node 1 (.leaf 11204034560000000000000000000000000000000000112040345610388207870000000000000000000000001120403456000000000000000000000000000000000011204034560000000000000000000000000000000000112040345610912217670000000000000000000000001120403456105178165610870220390000000000000011204034561077425484107791683400000000000000112040345600000000000000000000000000000000001120403456000000000000000000000000000000000011204034560000000000000000000000000000000000112040345600000000001064564687000000000000001120403456107112230500000000001028491103000011204034560000000000000000000000000000000000112040345610443565301047676741000000000051171120403456000000000000000000000000000000000011204034560000000000000000000000000000000000)
 (.leaf 11204034560000000000000000000000000000000000111201484800000000000000000000000000000000001112014848000000000000000000001067685858000011204034561066692986101166612510587227885118110677196800000000000000000000105762410951191120403456000000000000000000000000000000512011204034560000000000000000000000000000000000112040345600000000000000000000104876672500001120403456000000000000000000001064107582000011204034561117905887110048302910284712410000112040345600000000000000000000000000000000001120403456000000000000000000000000000000000011204034560000000000000000000000000000000000112040345600000000001057073660106450141600001120403456000000000000000000000000000000000011204034560000000000000000000000000000000000))
 (.node 1 (.leaf 11204034560000000000000000000000000000000000112040345600000000000000000000000000000000001120403456000000000000000000000000000000000011204034560000000000000000000000000000000000112040345600000000000000000000000000000000001120403456000000000000000000000000000000000011204034561075827031000000000000000000000000112040345610918011970000000000000000000000001120403456000000000000000000000000000000000011204034560000000000000000000000000000000000112040345600000000000000000000000000000000001120403456000000000000000000001021348381000011204034560000000000000000000010380045880000112040345600000000000000000000000000000000001120403456000000000000000000000000000000000011204034560000000000000000000000000000000000)
 (.leaf 11204034560000000000000000000000000000000000112040345600000000000000000000000000000000001108344832000000000000000000001064687815000011156848640000000000000000000010720626955121111817523200000000000000000000106021961700001120010240000000000000000000000000000000512211004805120000000000000000000010489213615123111712665600000000001058467847000000000000001096810496000000000000000000000000000000000011204034560000000000000000000009232392220000112040345600000000000000000000000000000000001120403456000000000000000000000000000000000011204034560000000000000000000000000000000000112040345600000000000000000000000000000000001120403456000000000000000000000000000000000011204034561080697373101402835700000000005124)))))
 (.node 8 (.node 4 (.node 2 (.node 1 (.leaf 11204034561066669296000000000000000000000000112040345611043680111030241858103670979900001120403456000000000010384157181008310268512511204034560000000000000000000000000000000000112040345609424054820000000000000000000000001120403456000000000000000000000000000000000011204034560000000000000000000000000000000000112040345600000000000000000000000000000000001120403456000000000000000000000000000000000011204034560000000000105972278200000000000000112040345610822397290000000000000000000051261120403456000000000000000000000000000000000011204034560000000000000000000000000000000000112040345600000000000000000000000000000000001120403456000000000010912397260000000000000011204034560000000000000000000000000000000000)
 (.leaf 11204034560000000000000000000000000000000000112040345600000000000000000000000000000000001120403456000000000000000000001045662628512711204034560000000000000000000000000000000000112040345600000000000000000000000000000000001120403456000000000000000000000000000000000011204034560000000000000000000000000000000000110205337600000000000000000000106010332900001102053376000000000000000000001059769357000011204034561100875117104864310910739378250000112040345600000000001082979779106911114600001120403456000000000000000000000000000000000011204034560000000000000000000000000000000000112040345610603900790000000000000000000000001120403456110042508610721714770000000000000011204034560000000000000000000000000000000000))
 (.node 1 (.leaf 11204034560000000000000000000000000000000000112040345600000000000000000000106109985500001116340224105768284100000000001039322485000011204034560000000000000000000000000000000000112040345610491206561046904989000000000000001120403456105062151210406974190000000000000011204034560000000000000000000000000000000000112040345600000000000000000000000000000000001120403456000000000010679226470000000000000011204034560000000000107905642700000000000000112040345600000000000000000000000000000000001120403456000000000010891674260000000000000011204034561092561645107248353300000000000000112040345600000000000000000000000000000000001120403456000000000011077538020000000000000011204034560000000000000000000000000000000000)
 (.leaf 11204034560000000000000000000000000000000000112040345600000000000000000000000000000000001120403456000000000000000000000000000000000011204034560000000000000000000000000000000000112001024000000000000000000000000000000000001119354880104649388000000000001059195280512811135877121033680919107428288910586519100000111411200000000000000000000000000000000000001120403456000000000000000000001048433958512911204034561084093211000000000000000000000000112040345610963711080000000000000000000000001120403456000000000000000000001008349819000011204034560000000000000000000010706742390000112040345610953770180000000000104386372500001120403456108384554810967384590000000000000011204034561025384787000000000000000000000000)))
 (.node 2 (.node 1 (.leaf 11189616641111619736108988989410592734790000112040345600000000000000000000000000000000001120403456000000000000000000001045994892000011204034560000000000000000000000000000000000112040345600000000000000000000000000000000001120403456000000000000000000000000000000000011204034561082237842105872957110632990630000112040345600000000000000000000000000000000001120403456000000000010765725600000000000000011204034560000000000000000000000000000000000112040345600000000000000000000000000000000001120403456000000000000000000000000000000000011204034560000000000000000000000000000000000112040345600000000000000000000000000000000001120403456000000000000000000000000000000000011204034560000000000108011171300000000000000)
 (.leaf 11204034561084138310000000000000000000000000112040345600000000000000000000000000000000001120403456000000000000000000000000000000000011204034560000000000000000000000000000000000112040345600000000000000000000000000000000001114112000000000000000000000000000000000000011036262400000000000000000000010420294660000110755840000000000000000000000106037105300001103626240000000000000000000001044691576000011204034560000000000000000000010436965160000112040345600000000000000000000000000000000001120403456105011433610954816360000000000000011204034561087838938109127611200000000000000112040345610999085441070595257000000000000001120403456000000000000000000000000000000000011204034561058789415000000000000000000000000))
 (.node 1 (.leaf 11204034560000000000000000000000000000000000112040345610738279250000000000000000000000001120403456110541440210671945150000000000000011083448321074641611109478045300000000005130111712665600000000000000000000000000000000001119617024000000000000000000001051380337000011091312640000000000107669671110557013300000107793612800000000001051676430101560471000001120403456111557987410464419381063627353000011204034560000000000000000000000000000000000112040345610204745660000000000000000000000001120403456000000000000000000000000000000000011204034561091812827000000000000000000000000112040345600000000000000000000000000000000001120403456000000000000000000000000000000000011204034560000000000000000000000000000000000)
 (.leaf 11204034560000000000000000000000000000000000112040345610996322201052592466000000000000001120403456000000000000000000000000000000000011204034560000000000000000000000000000000000112040345610696795900000000000000000000000001111228416000000000000000000001049474108000011051991040000000000000000000010472092710000112040345600000000000000000000000000000051311120403456000000000000000000000000000000000011204034560000000000000000000010421833945132112040345600000000000000000000000000000000001120403456110371185800000000000000000000000011204034560000000000000000000010546808710000112040345600000000000000000000000000000051331120403456106722556210850276471065939001000011204034561104279140107791473710327716770000))))
 (.node 4 (.node 2 (.node 1 (.leaf 11204034560000000000000000000000000000000000112040345600000000000000000000000000000000001120403456103943389400000000000000000000000011204034560000000000000000000000000000000000112040345610575643261084979832000000000051341108344832000000000000000000000000000000000011179130880000000000000000000000000000000000111568486400000000001082878276104494857600001077936128105222001100000000000000000000000011204034561113051531000000000000000000000000112040345610668360530000000000104748267400001117126656107533286200000000001080233988000011204034560000000000000000000000000000000000112040345610521745120000000000000000000000001120403456000000000000000000001019478719000011204034560000000000000000000000000000000000)
 (.leaf 11204034560000000000105043156000000000000000112040345600000000001084464352000000000000001120403456107022911110216653460000000000000011204034560000000000107570182200000000000000112040345600000000000000000000000000000000001120403456000000000010860122600000000000000011204034560000000000105165629700000000000000112040345600000000000000000000000000000000001120403456000000000000000000000000000000000011204034561062763938000000000000000000000000112040345600000000000000000000000000000000001116733440106064180500000000001051976882000011204034560000000000100898177000000000000000112040345611006500631073016209101713492800001120403456103124392800000000000000000000000011204034560000000000000000000000000000000000))
 (.node 1 (.leaf 11204034560000000000000000000000000000000000112040345600000000000000000000000000000000001120403456000000000000000000000000000000000011204034560000000000000000000000000000000000112040345600000000000000000000000000000051351120403456107490326510722754950000000000000011204034561085780724109210522100000000000000109051904000000000000000000000000000000000001090519040092755241200000000001032924524000011193548800000000000101753144010650669290000112040345610577689251061635385000000000000001120403456000000000000000000000000000000000011204034561094366935104305965100000000000000112040345600000000000000000000000000000000001120403456000000000000000000000000000000000011204034560000000000000000000000000000000000)
 (.leaf 11204034560000000000106625583000000000000000112040345600000000000000000000000000000000001120403456000000000000000000000000000000000011204034560000000000000000000000000000000000112040345600000000000000000000000000000000001120403456000000000000000000000000000000000011181752320000000000000000000000000000000000112040345600000000000000000000000000000000001120403456000000000000000000000000000000000011135877121068045699000000000010710212990000110991769600000000000000000000105747714700001109131264106008795500000000000000000000000011204034561061056185000000000010199422090000112040345600000000000000000000105277672800001120403456000000000000000000001034647117000011204034561094333326000000000000000000000000)))
 (.node 2 (.node 1 (.leaf 11204034561052347015000000000000000000000000112040345600000000000000000000000000000000001120403456000000000000000000000000000000000011204034560000000000000000000000000000000000112040345600000000000000000000000000000000001120403456000000000000000000000000000000000011204034561048614185108470720300000000000000112040345600000000001088284525000000000000001120403456000000000010798629910000000000000011204034560000000000000000000000000000000000112040345610761468550000000000000000000000001120403456000000000000000000000000000000000011204034560000000000000000000000000000000000112040345600000000000000000000000000000000001096810496000000000000000000000000000000000011204034560000000000000000000010486518150000)
 (.leaf 11128012800000000000000000000010509756260000112040345610872836570000000000000000000000001120403456000000000000000000000000000000000011193548801075037465000000000010512326770000112040345610845537791092232937000000000000001120403456000000000000000000000000000000000011204034561086615972000000000000000000000000112040345600000000000000000000000000000000001120403456000000000000000000000000000000000011204034561076785584000000000000000000000000112040345610828213890000000000000000000000001120403456000000000000000000000000000000000011204034560000000000000000000000000000000000112040345610806559031077402193000000000000001120403456000000000010747899810000000000000011196170241111259828101635032410270819780000))
 (.node 1 (.leaf 11204034560000000000000000000000000000000000112040345600000000000000000000000000000000001120403456000000000000000000000000000000000011204034560000000000000000000000000000000000112040345600000000000000000000000000000000001120403456101294280400000000000000000000000011204034560000000000000000000000000000000000112040345600000000000000000000000000000000001120403456000000000000000000000000000000000011204034560000000000000000000000000000000000111489843200000000000000000000000000000000001120403456000000000000000000001046587808000011181752321057664537000000000010384555850000112040345600000000000000000000000000000000001114898432107276298200000000001056801531000011204034561057370063000000000000000000000000)
 (.leaf 11204034560000000000000000000000000000005136112040345609989761070000000000103442762400001120403456000000000000000000001046028434000011204034560000000000000000000000000000000000112040345600000000000000000000000000000000001120403456000000000000000000000000000000000011204034561071489667104495883200000000000000110677196811031775700000000000000000000000001102053376000000000000000000000000000000000011204034561088980754105742765900000000000000112040345610631418950000000000000000000000001120403456000000000010859875140000000000000011204034561058334669000000000010523705050000112040345600000000000000000000000000000000001120403456000000000000000000000000000000000011204034560000000000000000000000000000000000))))))
 (.node 16 (.node 8 (.node 4 (.node 2 (.node 1 (.leaf 11204034561089590021105772964900000000000000112040345600000000001092905075000000000000001120403456000000000010040291360000000000000011204034560000000000000000000000000000000000112040345600000000001069389814000000000000001120403456000000000000000000000000000000000011167334400000000000000000000000000000000000112040345600000000000000000000000000000051371118568448000000000000000000000000000000000011204034561097603956000000000000000000000000112040345600000000000000000000000000000051381120403456000000000000000000000000000000000011204034560000000000000000000000000000005139112040345600000000000000000000000000000000001120403456109508568300000000000000000000000011204034560000000000000000000000000000000000)
 (.leaf 11204034560000000000000000000000000000000000112040345600000000000000000000000000000000001120403456000000000000000000000000000000000011204034560000000000000000000000000000000000112040345600000000000000000000000000000000001120403456000000000000000000000000000000000011204034560000000000000000000000000000000000112040345610669084891076751657000000000000001120403456106731453100000000000000000000000011204034561118587778103209406300000000000000112040345600000000000000000000000000000000001120403456000000000000000000000000000000000011204034560000000000105519964500000000000000112040345600000000000000000000000000000000001120403456000000000000000000000000000000000011204034560000000000000000000000000000000000))
 (.node 1 (.leaf 11193548801069371150000000000000000000000000112040345600000000000000000000000000000051401120403456000000000000000000000000000000000011204034560000000000000000000000000000000000112040345600000000000000000000000000000000001120403456109656358700000000000000000000000011204034561074828665000000000000000000000000112040345610935595110000000000000000000000001120403456000000000000000000000000000000000011204034560977145325000000000000000000000000112040345600000000000000000000000000000000001120403456000000000000000000000000000000000011204034560000000000000000000000000000000000112040345600000000000000000000000000000000001120403456000000000000000000000000000000000011204034560000000000000000000000000000000000)
 (.leaf 11204034560000000000000000000000000000000000112040345600000000000000000000000000000000001120403456000000000000000000000000000000000011200102401117403998107205655310876568105141112040345600000000000000000000000000000000001120403456111239551110621974220000000000000011204034561107415932108722441400000000000000112040345611199853820000000000000000000000001120403456000000000000000000000000000000000011204034561018192864000000000010579094770000112040345600000000000000000000000000000000001120403456000000000000000000000000000000514211204034561091141675107611621910298679465143112040345611105813191045703741106856655351441120403456000000000000000000000000000000514511204034560000000000000000000000000000000000)))
 (.node 2 (.node 1 (.leaf 11204034560000000000000000000010166275570000110913126400000000000000000000105756311300001120403456000000000000000000000000000000000011204034560000000000000000000000000000000000112040345600000000000000000000000000000000001099431936000000000000000000001033628956000011036262401042369168000000000000000000000000111896166410806480390000000000104304550800001120403456106871348300000000000000000000000011204034561055314602000000000010426568680000112040345610512901840000000000000000000000001120403456000000000000000000000000000000000011204034560000000000000000000000000000000000112040345600000000000000000000103493032700001120403456000000000000000000001044481622000011204034560000000000000000000000000000000000)
 (.leaf 11204034561066592859000000000010405822370000112040345610517440080000000000000000000000001120403456000000000000000000000000000000000011204034560000000000000000000000000000000000111896166410795555400000000000000000000000001120403456108389325410510288290000000000000011204034561088374939000000000000000000000000112040345610896494031051119426000000000000001120403456000000000000000000000000000000000011204034560000000000000000000000000000000000112040345600000000001088384768000000000000001120403456000000000000000000001041566457000011204034560000000000000000000010499210660000110677196800000000000000000000104223564400001120403456107180778011030673490000000000000011204034561083036391000000000000000000005146))
 (.node 1 (.leaf 11204034560000000000000000000000000000000000112040345600000000000000000000000000000000001112801280000000000000000000000000000000000011204034560000000000000000000010621969540000112040345600000000000000000000000000000000001120403456106646864900000000001024740642000011204034561053993262000000000000000000000000112040345600000000000000000000000000000000001120403456000000000000000000000000000000000011204034560976286332000000000000000000000000112040345600000000000000000000000000000000001120403456000000000000000000000000000000000011204034560000000000000000000000000000000000112040345610565368230000000000000000000000001120403456110703745910944698651057646724000011204034560000000000000000000000000000005147)
 (.leaf 11204034560000000000000000000000000000000000112040345600000000000000000000000000000000001120403456000000000000000000000000000000000011204034561092382987101688719400000000000000112040345611034335871042690553000000000000001120403456105494956410807626691052022017000011204034561075109322000000000000000000000000112040345610544661790000000000000000000000001120403456000000000000000000000000000000000011204034561096882655103042976300000000000000112040345600000000000000000000000000000000001120403456000000000000000000000000000000000011204034560000000000000000000000000000000000112040345600000000000000000000000000000000001120403456105193446300000000000000000000000011204034560000000000000000000000000000000000))))
 (.node 4 (.node 2 (.node 1 (.leaf 11204034560000000000000000000000000000000000111489843200000000000000000000000000000000001106771968000000000000000000001053152069000011179130880000000000000000000010579167200000108632473610489979470000000000104604506000001120403456106711898400000000000000000000000011204034561110756917106865832810696212050000112040345600000000000000000000000000000000001120403456000000000000000000000000000000000011204034560000000000000000000000000000000000112040345600000000000000000000000000000000001120403456000000000000000000000000000000000011204034560000000000000000000000000000000000112040345600000000000000000000000000000000001120403456000000000000000000000000000000000011204034561057986206000000000000000000000000)
 (.leaf 11204034561066180870105961373000000000000000112040345610768973501042086573104961924200001120403456107991620910411806030000000000000011204034560000000000000000000000000000000000112040345610385284610000000000000000000000001120403456108151845800000000000000000000000011204034561092332385103963709900000000000000112040345610684191010000000000106689279100001120403456000000000000000000000000000000000011091312641058405100000000000010473541180000112040345600000000000000000000104703891600001120403456000000000000000000000000000000000010905190400000000000000000000000000000000000112040345610249598541035825316000000000000001120403456109190565700000000001056038228000011204034560000000000000000000000000000000000))
 (.node 1 (.leaf 11204034561051917216000000000000000000000000112040345610200633230000000000000000000000001120403456105949298500000000000000000000000011204034561032227475000000000000000000000000112040345611171610450000000000000000000000001120403456110460065200000000000000000000000011204034560000000000000000000000000000000000112040345610880462150000000000000000000000001120403456105806492500000000000000000000000011204034560000000000000000000000000000000000112040345610960597991059237921102684005651481120403456000000000010417845830000000000000011083448320000000000000000000000000000000000112040345610596326050000000000000000000000001120403456000000000000000000000000000000000011185684481065427388107742987610206348000000)
 (.leaf 10905190400000000000000000000000000000000000112040345600000000001084857149000000000000001120403456000000000000000000000000000000000011204034560000000000000000000000000000000000112040345600000000000000000000105054265600001120403456000000000000000000000000000000000011204034560000000000000000000000000000000000112040345610898799711035946112000000000000001120403456000000000000000000000000000000000011204034560000000000000000000010770276310000111673344010775334581090009851107948026100001114898432106764047911105902261049555172000011036262400000000000108324255210717241620000109943193610649421240000000000105805415500001120403456000000000000000000000000000000000011204034560000000000000000000000000000000000)))
 (.node 2 (.node 1 (.leaf 11204034560000000000109489380410716780860000112040345610504826970985963430000000000051491120403456000000000010610515381041749085515011204034560000000000000000000000000000005151112040345600000000001084106369000000000000001120403456000000000011044795710000000000000011204034560000000000000000000010244881145152111817523210663211690000000000107537043700001119617024107521558500000000000000000000000011204034560000000000000000000000000000000000112040345600000000000000000000000000000000001116078080000000000000000000000000000000000011120148480000000000000000000000000000000000111201484800000000000000000000000000000000001120403456000000000000000000000000000000000011204034561101814963000000000000000000000000)
 (.leaf 11204034560000000000000000000000000000000000112040345600000000000000000000000000000000001120403456108231738900000000000000000000000011204034560000000000000000000000000000000000112040345610514210470000000000000000000000001120403456103595577500000000000000000000000011204034560000000000000000000000000000005153112040345610390886860000000000104465994200001114112000106620997810830772960000000000000011204034560000000000000000000000000000000000112040345600000000000000000000000000000000001120403456000000000000000000000000000000000011204034561089394404108664119610607623950000112040345600000000000000000000000000000000001120403456000000000000000000001050169967000011204034561087651642108088598200000000005154))
 (.node 1 (.leaf 11204034560000000000000000000000000000000000112040345600000000001087523888000000000000001120403456000000000000000000000000000000000011204034560000000000110092442700000000000000111673344000000000001084160265104294672500001120403456100624104400000000000000000000000011083448321037844487108935008700000000000000112040345610168979320000000000000000000000001120403456000000000000000000000000000000000011204034561058380236000000000000000000000000112040345610173553460000000000104647849600001120403456000000000000000000000000000000000011075584000000000000000000000000000000000000112040345600000000000000000000000000000000001120403456000000000000000000000000000000000011204034561100611630000000000000000000000000)
 (.leaf 11204034561053212619000000000000000000000000112040345600000000000000000000000000000000001120403456000000000000000000000000000000000011204034561101438758106663331810647853455155112040345600000000000000000000000000000000001120403456109118076910581826340000000000000011204034561085630941101688719400000000000000112040345610813012850000000000000000000000001120403456105296277200000000000000000000000011204034560000000000000000000000000000000000112040345600000000001066320423105898409500001120403456000000000010774923710000000000000011204034560000000000000000000000000000000000112040345600000000001067271691000000000000001119354880000000000010805777010000000000000010905190400000000000104045582710111933380000)))))
 (.node 8 (.node 4 (.node 2 (.node 1 (.leaf 11204034560000000000000000000000000000000000112040345600000000000000000000000000000000001117519872000000000000000000001067490671000011204034560000000000108360116500000000000000112040345610937743771101704829000000000000001120403456000000000000000000000000000000000011083448320000000000000000000010470109350000109681049600000000000000000000000000000000001112014848000000000000000000001040325552000011204034560000000000000000000000000000000000112040345610938062100000000000000000000000001120403456000000000000000000000000000000000011204034560000000000000000000000000000000000111961702411185886551048938388106045616700001096810496109430506700000000001074909404000011204034560000000000000000000000000000000000)
 (.leaf 11204034560000000000000000000000000000000000112040345600000000000000000000000000000000001120403456106016551600000000000000000000000011204034560000000000000000000000000000000000112040345610169043740000000000000000000000001120403456105364513500000000000000000000000011204034561078109114105382726900000000000000112040345600000000000000000000000000000051561120403456000000000000000000000000000000515711204034560000000000000000000000000000000000109051904000000000000000000000000000000000001120403456000000000000000000000000000000000011204034561067147808000000000000000000000000110991769610589737640000000000105911096300001117519872000000000010790132251055904148000011204034560000000000000000000010235804460000))
 (.node 1 (.leaf 11204034561114112430102731591210380234700000111751987200000000000000000000000000000000001120403456000000000010624843120000000000515811128012800000000000000000000000000000000000111358771200000000000000000000102349510600001105199104000000000000000000001042267324000010994319360000000000000000000000000000000000112040345600000000000000000000000000000051591120403456108520175110867871580000000000000011204034561091513671103371809800000000000000112040345610920331331043005964103321855100001120403456109967551400000000000000000000000011204034560000000000000000000000000000000000112040345611030460011058729571106292801800001120403456104770405500000000000000000000000011204034560000000000000000000010374664760000)
 (.leaf 11204034561068131204000000000000000000000000112040345610948818431044697108103059048151601120403456105710258400000000000000000000000011204034561090749447000000000000000000000000111712665611169716771047950398106437541000001090519040108629941510637342151065902576000010884218880000000000000000000010473868035161112040345600000000000000000000000000000000001120403456000000000000000000000000000000000011204034561067811707000000000000000000000000112040345600000000000000000000000000000000001120403456000000000000000000000000000000000011204034560975633497000000000000000000000000112040345600000000000000000000000000000000001120403456105871789410291412731049113559516211204034560000000000106848300600000000000000)))
 (.node 2 (.node 1 (.leaf 11204034560000000000107491161500000000000000112040345600000000000000000000000000000000001111228416110234018511031933111049539019000011196170240000000000107750705110671167730000111358771200000000000000000000106192396400001120010240000000000000000000001059410220516311128012800000000000000000000000000000000000111856844800000000000000000000104772311700001118568448000000000000000000000000000000000011204034561113735511000000000000000000000000112040345610885284760000000000000000000000001120403456106724556910404356951031944466000011204034561095085389105839570500000000005164112040345600000000000000000000000000000000001120403456000000000000000000000000000000000011204034560000000000000000000000000000000000)
 (.leaf 11204034560000000000000000000010490898145165111935488000000000000000000000104736212300001120403456000000000000000000000000000000000011204034560000000000000000000000000000000000112040345611083524511075900632000000000000001120403456000000000000000000000000000000000011204034560000000000000000000000000000000000112040345610697498621061043149000000000000001120403456000000000010604274250000000000000011204034561042184350109773722700000000005166112040345600000000001079489698104275486300001120403456000000000000000000000000000000000011204034560000000000000000000000000000000000111634022400000000000000000000101669879800001119354880000000000000000000000000000000000011091312640000000000000000000010590165670000))
 (.node 1 (.leaf 11204034560000000000000000000000000000000000111568486400000000000000000000000000000000001100480512000000000000000000000000000000000011179130880000000000000000000000000000000000112040345600000000000000000000104116092500001120403456000000000000000000000000000000516711204034561096464624109215712500000000000000112040345600000000000000000000088386855451681120403456000000000000000000000000000000000011204034560000000000000000000000000000000000112040345610824997820000000000000000000000001120403456000000000000000000000000000000000011204034560000000000000000000000000000000000112040345600000000000000000000000000000000001120403456110201980500000000000000000000000011204034560000000000110519318010254713765169)
 (.leaf 11204034560000000000000000000000000000000000112040345610854145571080692625000000000000001120403456105905095510858839150000000000000011204034561078420105106024455400000000000000112040345600000000000000000000102464631800001120403456000000000000000000000000000000000011204034560000000000107204061400000000000000112040345600000000000000000000000000000000001120403456000000000000000000000000000000000011204034560000000000000000000000000000000000111817523211048196971104173702000000000000001118568448000000000000000000001069598540000011204034560000000000000000000010597070725170112040345600000000001091656640103158980800001107558400000000000000000000000000000000000011204034560000000000000000000000000000000000))))
 (.node 4 (.node 2 (.node 1 (.leaf 11204034561033270481000000000000000000000000112040345611204034560000000000000000000000001120403456000000000000000000000000000000000011204034561097541223103727486710419505840000112040345600000000000000000000107544778300001120403456000000000000000000000000000000000011204034560000000000000000000000000000000000112040345600000000000000000000000000000000001120403456109649938900000000000000000000000011204034561096656051105242133800000000005171112040345600000000000000000000106290825800001096810496000000000010738324211032888285000011204034560000000000000000000000000000000000112040345610384243080000000000000000000000001120403456000000000000000000001029255591000011204034560000000000110299746100000000000000)
 (.leaf 11204034560000000000108830444710739963430000112040345610536084941021450597106676930600001120403456106618726200000000000000000000000011083448320000000000000000000010405506420000112040345600000000000000000000103706542500001120403456000000000000000000000000000000517211204034561120398815101729426210149407980000112040345600000000000000000000000000000000001120403456000000000000000000000000000000000011204034561069405409000000000000000000000000112040345600000000000000000000000000000000001120403456000000000000000000000000000000000011204034560000000000000000000000000000000000112040345611032490411032617512104453839900001103626240108330240910694602781053987617000011204034560957945748000000000000000000000000))
 (.node 1 (.leaf 11204034560000000000108842461400000000000000112040345609792584491071091863000000000000001120403456101859068610697589131025899105000011204034560000000000000000000000000000000000112040345600000000000000000000103321767600001120403456109161843610634842340000000000000011204034561091827127107425059300000000000000112040345600000000000000000000000000000000001120403456000000000010832622651027952674000011204034560000000000108446707900000000000000111122841600000000000000000000101802884400001116733440109332036511062366180000000000000011075584000000000000000000000000000000000000111634022400000000001090936793000000000000001118961664000000000010979483060000000000000011204034560000000000109792901200000000000000)
 (.leaf 11204034561029527283108185654410455793840000112040345610822642241026242170103375648800001120403456112035995510335570361048785533000011204034560000000000000000000000000000000000112040345600000000000000000000000000000000001120403456000000000000000000000000000000000011204034560000000000000000000000000000000000112040345610738547510000000000000000000000001120403456000000000000000000000000000000000011204034561050605741000000000000000000000000112040345600000000000000000000000000000000001120403456000000000000000000000000000000000011204034560000000000000000000000000000000000112040345600000000000000000000000000000000001120403456000000000000000000000000000000000011204034561111566970000000000000000000005173)))
 (.node 2 (.node 1 (.leaf 11204034560000000000000000000010578414590000112040345600000000000000000000104919723800001120403456000000000000000000001037588195000011204034560000000000000000000000000000000000112040345600000000000000000000000000000000001120403456106261220510411806030000000000000011204034561109846470103222828110498458030000112040345610859634030000000000000000000000001120403456000000000000000000000000000000000011204034561049825500107490532410350886630000112040345600000000001076578851000000000000001120403456103040533600000000000000000000000011036262400000000000000000000010549633370000112040345610665621740000000000000000000000001120403456109635254100000000000000000000000011204034560000000000000000000000000000000000)
 (.leaf 11204034560000000000000000000000000000000000112040345600000000000000000000000000000000001120403456000000000000000000000000000000000011204034560000000000000000000000000000000000112040345611069894850000000000000000000000001120403456000000000000000000000000000000000011204034561055673534000000000000000000000000112040345600000000000000000000000000000000001120403456000000000000000000000000000000000011204034561063740439000000000000000000000000112040345611082884630000000000000000000000001120403456110021279010275843471043873440517411204034560000000000110793549410574227610000112040345600000000001093135657103501145651751120403456000000000000000000000000000000000011204034560000000000107953961010470977910000))
 (.node 1 (.leaf 11204034560000000000107829599910631029580000112040345600000000000000000000000000000000001120403456000000000000000000000000000000000011204034561085245932107970738300000000000000112040345600000000001066817028103204956700001116733440000000000000000000000000000000000011075584000000000000000000000000000000000000108632473600000000000000000000000000000000001120403456110799745300000000000000000000000011204034560000000000000000000000000000000000110991769600000000000000000000000000000000001077936128000000000000000000000000000000000011135877120000000000000000000000000000000000112040345600000000000000000000000000000000001120403456111620348510628534111070445101000011204034561020758571000000000000000000000000)
 (.leaf 11204034561096091491000000000000000000000000112040345600000000000000000000000000000000001120403456000000000000000000000000000000000011204034560000000000000000000000000000000000112040345600000000000000000000000000000000001120403456000000000000000000000000000000000011204034561091437960000000000000000000000000112040345611083060590000000000000000000000001120403456109348421700000000000000000000000011204034561067233346000000000010502076820000112040345600000000000000000000105596952600001120403456105445362910626940270000000000000011204034560000000000000000000000000000000000112040345600000000000000000000000000000000001120403456000000000010803797300000000000000011204034560000000000000000000000000000000000)))))))
 (.node 32 (.node 16 (.node 8 (.node 4 (.node 2 (.node 1 (.leaf 11204034561038897828108209352200000000000000111896166400000000000000000000104674199000001109131264000000000000000000000000000000000011036262400000000000000000000000000000000000112040345610663140050000000000000000000000001120403456110108214310484417821055326581000011204034560000000000000000000010346064440000112040345600000000000000000000107280739900001120403456000000000000000000000000000000000010936647680000000000000000000000000000000000109681049600000000000000000000000000000000001120403456000000000000000000000000000000517611204034560000000000000000000000000000000000112040345610883837580000000000000000000000001120403456000000000000000000000000000000000011204034560000000000000000000000000000000000)
 (.leaf 11204034560000000000000000000000000000000000112040345610461600140000000000000000000000001120403456110193653600000000000000000000000011204034560000000000000000000000000000000000112040345610927998090000000000104085067900001120403456109488314610279601571039504001000011148984320000000000000000000010458238240000112040345600000000001064014394000000000000001120403456097477450310704300020000000000000011204034561076705494107788369900000000000000112040345600000000001051418060104103106000001120403456000000000000000000000000000000517711204034560000000000108996035910175867935178112040345600000000000000000000000000000000001120403456000000000000000000000000000000000011120148480000000000000000000000000000000000))
 (.node 1 (.leaf 11204034560000000000000000000000000000005179111935488000000000000000000000103356756600001120403456105317990300000000000000000000000011204034561036022616000000000000000000000000112040345611050012320000000000000000000000001102053376000000000000000000000000000000000011204034560000000000000000000000000000000000112040345600000000000000000000000000000000001120403456000000000000000000000000000000000011204034561095921600000000000000000000000000112040345600000000000000000000000000000000001120403456000000000000000000000000000000000011204034560000000000000000000000000000000000112040345600000000000000000000000000000000001120403456000000000000000000000000000000000011204034560000000000000000000000000000000000)
 (.leaf 11204034561104979742000000000000000000005180112040345610850630701036174282101538154551811120403456000000000000000000001014868175518211204034561072480874000000000000000000000000112040345600000000001044683686000000000000001120403456105945545400000000000000000000000011204034561078332569000000000000000000000000112040345600000000001037060119000000000000001120403456109239086110938709180000000000000011204034560000000000000000000000000000000000112040345600000000000000000000000000000000001120403456000000000000000000000000000000000011204034561097863671110715202410845854590000112040345600000000000000000000000000000000001105199104000000000000000000001040397798000011204034560000000000000000000000000000000000)))
 (.node 2 (.node 1 (.leaf 11204034561043079985000000000000000000000000112040345600000000000000000000000000000000001120403456105874408300000000000000000000000011204034561037868378000000000000000000000000112040345600000000000000000000000000000000001120403456000000000000000000000000000000000011204034560000000000000000000000000000000000112040345600000000000000000000000000000000001120403456000000000000000000000000000000000011204034561102395276101683350710324667595183112040345610165398390000000000105271057200001120403456109197294600000000000000000000000011204034560000000000000000000000000000000000111044198400000000000000000000107017320100001120403456000000000000000000000000000000000011204034560000000000000000000000000000000000)
 (.leaf 11204034560000000000000000000000000000000000112040345600000000000980151802103806772500001119617024000000000000000000000000000000000011204034560000000000000000000000000000005184112001024000000000000000000000107095565300001120403456108613103300000000001058156796000011179130881116903831105147845810598492530000110677196811060623130000000000106383571900001120403456000000000000000000001035274765000011051991041080313153096165659910460258050000112040345610688769430000000000000000000000001120403456107894052500000000000000000000000011204034560000000000000000000000000000000000112040345600000000000000000000000000000000001120403456000000000000000000000000000000000011204034560000000000000000000000000000000000))
 (.node 1 (.leaf 11204034560000000000000000000000000000000000112040345600000000000000000000000000000000001120403456000000000000000000000000000000000011204034560000000000000000000010535161920000112040345610644725630000000000000000000000001120403456000000000000000000000000000000000011204034561090214949000000000000000000000000112040345610847105180000000000106026386600001120403456000000000000000000001042099121518511204034561057419556000000000010562263450000112040345600000000000000000000102249504451861120403456000000000009767158281045376283000011204034560000000000000000000010174453920000112040345600000000000000000000000000000000001120403456000000000010949900630000000000000011204034561084082021103661720010404447580000)
 (.leaf 11204034560000000000107517250100000000000000112040345611134411170000000000000000000000001120403456000000000000000000001044273165000011156848641096234271110353260210159732570000111856844800000000000000000000103985410100001120403456111342227300000000001022543667000011083448321099849994102887283810412572670000112040345600000000000000000000106500013700001120403456110049179600000000000000000000000011204034560000000000000000000000000000000000112040345610446832160000000000000000000000001120403456000000000000000000000000000000000011204034560000000000000000000000000000000000112040345600000000000000000000000000000000001120403456000000000000000000000000000000000011204034560000000000000000000000000000000000))))
 (.node 4 (.node 2 (.node 1 (.leaf 11204034561087437229102123584910325523020000112040345600000000000000000000102675906600001120403456000000000010723870641035713459000011204034560000000000000000000000000000000000112040345600000000001055206356104692807400001120403456000000000000000000000000000000000011204034560000000000000000000000000000000000112040345600000000000000000000000000000000001120403456000000000000000000000000000000000011204034561086607795107370910810457809095187112040345600000000001093343379103579393751881120403456110975462110656443010000000000518911204034561096561204000000000000000000000000112040345611023016850000000000000000000000001086324736000000000000000000000000000000000011204034560000000000000000000010213329740000)
 (.leaf 11204034560000000000000000000010151957340000112040345610664771470000000000000000000000001120403456108521075600000000000000000000000011204034561044346195000000000000000000000000112040345600000000000000000000000000000000001120403456106976595900000000000000000000000011204034561089658050000000000000000000000000112040345600000000000000000000103466483200001120403456109425694200000000001035506502000011204034560000000000000000000000000000000000112040345600000000000000000000000000000000001120403456105489728600000000000000000000000011204034560000000000000000000000000000000000112040345611074702550000000000000000000000001120403456000000000010025258980000000000000011204034560000000000000000000000000000000000))
 (.node 1 (.leaf 11075584001107550041000000000010235813850000110834483200000000000000000000104290133200001119617024110420208400000000001023485010519011135877120000000000000000000000000000000000112040345600000000000000000000000000000000001120403456000000000000000000001051915562000011204034561015130553000000000000000000000000112040345600000000000000000000000000000000001120403456000000000000000000000000000000000011204034560000000000000000000000000000000000112040345600000000000000000000000000000000001120403456000000000000000000000000000000000011204034561036370106000000000000000000000000112040345600000000000000000000000000000000001120403456000000000000000000000000000000000011204034560000000000000000000010348762200000)
 (.leaf 11204034561117788653000000000009845554480000112040345600000000000000000000000000000000001120403456000000000000000000000000000000000011204034560000000000000000000000000000000000112040345600000000000000000000000000000000001120403456104361296400000000001040945853000011104419840000000000000000000010816243840000112040345600000000000000000000000000000000001120403456108278083000000000000000000000000011204034561103633256108836757200000000000000112040345600000000000000000000000000000000001120403456000000000000000000000000000000000011204034561085117009000000000000000000000000112040345600000000000000000000000000000051911120403456102515124809784338150000000000000011204034560000000000000000000010253870430000)))
 (.node 2 (.node 1 (.leaf 11167334400000000000000000000000000000000000112040345600000000000000000000000000000000001099431936000000000000000000000000000000000011204034560000000000000000000000000000000000112040345610563812980000000000000000000000001120403456000000000000000000000000000000000011204034560000000000000000000000000000000000112040345610484007120000000000000000000000001120403456000000000000000000000000000000000011204034560000000000000000000000000000000000112040345600000000000000000000000000000000001120403456000000000000000000000000000000000011204034560000000000000000000000000000000000112040345600000000000000000000000000000000001120403456110767337610145652281021959809000011204034561071242237102583951700000000000000)
 (.leaf 11204034560000000000000000000000000000000000112040345600000000001082398867104290199800001120403456000000000000000000000000000000000011204034560000000000000000000000000000000000112040345600000000000000000000000000000000001120403456000000000010585198560000000000000011204034561068253636000000000000000000000000112040345610570891790000000000000000000000001120403456000000000000000000000000000000000011204034560000000000000000000000000000000000112040345600000000000000000000000000000000001120403456000000000000000000000000000000000011204034560000000000000000000010335455650000110834483200000000000000000000000000000000001090519040109051904000000000000000000000000011020533761102053376000000000000000000000000))
 (.node 1 (.leaf 11204034560000000000000000000010398714910000112040345600000000000000000000000000000000001120403456000000000000000000000000000000000011204034560000000000000000000000000000000000112040345600000000000000000000000000000000001120403456000000000000000000000000000000000011204034560000000000000000000000000000000000112040345610952049491030349233104075752800001120403456000000000000000000000000000000519211204034561104666668000000000000000000000000112040345600000000000000000000000000000000001120403456000000000000000000000000000000000011204034560000000000000000000010410439185193110755840000000000000000000000105394336900001120403456000000000000000000000000000000000011204034560000000000000000000000000000000000)
 (.leaf 11204034561053155979105237436200000000000000112040345600000000000000000000101180799800001120403456105210978510620279720000000000000011204034560000000000101522289510500175635194112040345611026060251059892232106659263851951120403456000000000010979051040000000000000011204034560000000000000000000000000000000000111935488000000000000000000000000000000000001120403456000000000000000000001058985636519611204034560000000000000000000000000000000000112040345610617380280000000000000000000000001120403456109418522200000000000000000000000011204034560000000000000000000000000000000000112040345600000000000000000000000000000000001120403456000000000000000000000000000000000011204034560000000000000000000000000000000000)))))
 (.node 8 (.node 4 (.node 2 (.node 1 (.leaf 11204034560000000000000000000000000000000000112040345600000000000000000000000000000000001120403456000000000000000000001008391991000011204034560000000000000000000000000000000000112040345610138522630000000000000000000000001120403456110516795510324698731050332182000011204034561104365874000000000000000000005197112040345600000000001082621375000000000000001120403456000000000000000000001026238080519811204034560000000000000000000000000000000000112040345600000000000000000000000000000000001120403456000000000000000000000000000000000011204034560000000000000000000000000000000000112040345610777910261066806962000000000000001120403456111697207210657315421074657795519911204034560000000000107907781800000000000000)
 (.leaf 11204034560000000000107478117300000000000000112040345600000000000000000000000000000000001120403456106463198000000000000000000000000011204034561025142122000000000000000000000000111961702400000000001088338002106048848900001109131264000000000000000000000000000000000011204034560000000000000000000000000000000000112040345610671548790000000000000000000000001120403456000000000000000000000000000000000011204034560000000000000000000000000000000000112040345600000000000000000000000000000000001120403456000000000000000000000000000000000011204034561110172626000000000000000000000000112040345600000000001081904778000000000000001120403456000000000000000000000000000000520011204034560000000000000000000010431195410000))
 (.node 1 (.leaf 11204034560000000000000000000000000000000000112040345600000000000000000000104481281500001120403456000000000000000000000000000000000011204034560000000000000000000000000000000000112040345600000000000000000000000000000000001120403456000000000000000000000000000000000011204034560000000000000000000009948991790000112040345610696136140000000000000000000000001120403456000000000000000000000000000000000011204034561012326476109815917400000000000000112040345610749802681080850750103687589100001120403456108244343600000000000000000000000011204034561092044027103575820710369014730000111817523200000000000000000000000000000000001106771968000000000000000000000000000000000011204034560000000000000000000000000000000000)
 (.leaf 11204034561111120196000000000000000000000000112040345610850322910000000000000000000000001120403456000000000000000000000000000000000011204034560000000000000000000000000000000000112040345611203367671044408540105095452600001120403456111749389100000000000000000000000011204034561108583229000000000000000000000000112040345600000000000000000000102480050600001120403456000000000000000000000000000000000011204034560000000000000000000000000000000000112040345600000000000000000000000000000000001120403456000000000000000000000000000000000011204034560000000000000000000010446057340000112040345600000000000000000000000000000000001120403456000000000000000000000000000000000011204034560000000000000000000000000000000000)))
 (.node 2 (.node 1 (.leaf 11204034560000000000000000000000000000000000111791308800000000000000000000103435091800001120403456000000000000000000000000000000000011020533760000000000000000000000000000000000112040345600000000000000000000106395584000001120403456107350097900000000001036257368000011204034561107027684000000000000000000000000112040345610641728051008981770103135774200001120403456000000000000000000000000000000000011204034560000000000000000000000000000000000112040345600000000000000000000000000000000001120403456109402058000000000000000000000000011204034561103565156000000000000000000000000112040345611057609640000000000000000000000001120403456102178667800000000000000000000000011204034560000000000000000000010334213740000)
 (.leaf 11204034560000000000000000000000000000000000112040345600000000000000000000000000000000001120403456000000000000000000000000000000000011204034560000000000000000000000000000000000112040345600000000000000000000000000000000001120403456000000000000000000000000000000000011204034561045192371105338770600000000000000112040345610768891210000000000103535325400001120403456000000000010286312460000000000000011204034560000000000000000000000000000000000112040345600000000000000000000000000000000001110441984000000000010470794721026103153000011020533760000000000000000000000000000000000112040345610173628620000000000104374835452011120403456000000000000000000001045992262000011204034560000000000000000000010591970040000))
 (.node 1 (.leaf 11204034560000000000000000000010413972690000112040345600000000000000000000000000000000001120403456000000000000000000000000000000000011204034560000000000000000000010490715760000111201484800000000000000000000000000000000001120403456000000000000000000001029230211000011204034561092937317102166534610441443190000112040345600000000001066928597000000000000001120403456000000000000000000000000000000000011204034560000000000000000000000000000000000112040345600000000000000000000000000000000001120403456000000000000000000000000000000000011204034561117284451101994735910265694000000112040345600000000000000000000000000000000001120403456000000000000000000000000000000000011204034560000000000000000000000000000000000)
 (.leaf 11104419840000000000000000000000000000000000112040345600000000000000000000000000000052021120403456000000000000000000000000000000520311204034560000000000000000000000000000005204112040345600000000000000000000000000000000001120403456000000000000000000000000000000000011204034561069367224000000000000000000000000112040345600000000001079998887000000000000001120403456109818723310864769890000000000000011204034561101984454109506912610263613540000112040345600000000000000000000000000000000001120403456000000000000000000000000000000000011204034561095960613104309320610488458650000111856844800000000000000000000000000000000001109131264000000000000000000000000000000000011204034560000000000000000000000000000000000))))
 (.node 4 (.node 2 (.node 1 (.leaf 11204034560000000000000000000000000000000000112040345600000000000000000000103264650500001120403456000000000000000000000000000000000011204034560000000000000000000000000000000000112040345600000000001090700339000000000000001120403456109951534910807815441083125277520511204034560000000000000000000000000000000000112040345600000000000000000000000000000000001120403456000000000000000000000000000000000011204034560000000000000000000000000000000000112040345611170524540000000000000000000000001120403456000000000000000000001027646336000011204034560000000000000000000000000000000000112040345600000000000000000000000000000052061119617024105714726200000000001076353666000011204034560000000000000000000000000000000000)
 (.leaf 11204034560000000000000000000000000000000000112040345600000000001088388543000000000000001120403456000000000000000000000000000000000011204034561087798302000000000000000000000000112040345600000000001090729699000000000000001120403456000000000000000000000000000000520711204034560000000000000000000010256523770000112040345600000000000000000000000000000000001120403456000000000010929753290000000000000010968104960000000000000000000010441341370000111712665600000000000000000000105089244000001103626240000000000000000000001033444065000010994319360000000000000000000000000000000000111122841600000000000000000000102349624700001120403456000000000000000000000000000000000011204034560000000000000000000000000000000000))
 (.node 1 (.leaf 11204034560000000000000000000000000000000000112040345600000000000000000000000000000000001120403456000000000000000000001014424705000011204034560000000000000000000010151041100000112040345600000000000000000000000000000000001120403456109219593410924434921072063119000011204034560000000000106991242400000000000000112040345600000000000000000000101802454600001120403456000000000000000000000000000000000011204034560000000000000000000000000000005208112040345600000000000000000000000000000000001120403456000000000000000000000000000000000011204034560000000000000000000000000000000000112040345600000000000000000000000000000000001120403456000000000000000000000000000000000011204034560000000000000000000000000000000000)
 (.leaf 11204034560000000000000000000000000000000000112040345600000000000000000000000000000000001120403456108621306300000000000000000000000011204034561095486881000000000000000000000000112040345600000000000000000000000000000000001120403456111659544610641838441062895300000011204034560000000000000000000000000000000000112040345600000000000000000000000000000000001120403456000000000000000000000000000000520911204034561057237875102667166710660908340000112040345610349138430000000000000000000000001103626240000000000000000000000000000000000011204034561049681484000000000000000000000000111122841600000000000000000000000000000000001120403456000000000000000000000000000000000011204034560000000000000000000000000000000000)))
 (.node 2 (.node 1 (.leaf 11204034560000000000000000000010610767100000112040345600000000001064282830104169829200001120403456000000000010787305291069959706000011204034560000000000000000000010339247000000112040345600000000000000000000000000000000001120403456109538464900000000000000000000000011204034560000000000000000000000000000000000112040345600000000000000000000000000000000001120403456000000000000000000000000000000521011204034560000000000000000000000000000000000112040345600000000000000000000000000000000001120403456111039026800000000000000000000000011204034560000000000000000000010304289050000112040345600000000000000000000105570230700001120403456000000000000000000000000000000000011204034560000000000000000000010586208320000)
 (.leaf 11099176960000000000000000000000000000000000112040345600000000001051418060000000000000001120403456000000000000000000000000000000000011204034561062165042107741267900000000000000112040345610650549001094085562105846094800001120403456000000000000000000000000000000000011204034560000000000000000000000000000000000112040345600000000000000000000000000000000001120403456105539161000000000001043840957000011112284160000000000000000000000000000000000112040345600000000000000000000000000000000001120010240000000000000000000000000000000000011004805120000000000000000000000000000000000112040345610525509590000000000000000000000001120403456000000000000000000000000000000000011204034560000000000000000000000000000000000))
 (.node 1 (.leaf 11204034560000000000000000000000000000000000112040345600000000000000000000000000000000001120403456000000000000000000001053778004521111204034560000000000000000000010460577395212112040345600000000000000000000102162627900001120403456106152814500000000001068255979000011204034560000000000000000000000000000000000112040345610650493470000000000000000000000001120403456000000000000000000000000000000000011204034560000000000000000000010371362710000112040345600000000000000000000000000000000001120403456000000000000000000000000000000000011204034560000000000000000000000000000000000112040345600000000000000000000102147227900001077936128000000000000000000001049211353000011204034560000000000000000000000000000000000)
 (.leaf 11204034560000000000000000000000000000000000112040345610821456800000000000000000000000001120403456000000000010896321540000000000000011204034560000000000110223451810578256730000112040345610847355900000000000000000000000001120403456000000000000000000000000000000000011204034560000000000000000000000000000000000112040345600000000000000000000000000000000001120403456104270531710863603881066486556521311204034560000000000000000000000000000000000112040345600000000000000000000000000000000001108344832000000000000000000000000000000000011204034560000000000000000000000000000000000112040345600000000000000000000000000000000001116733440000000000000000000000000000000000011196170240000000000000000000000000000000000))))))
 (.node 16 (.node 8 (.node 4 (.node 2 (.node 1 (.leaf 11204034560000000000000000000000000000000000112040345600000000000000000000000000000000001090519040000000000000000000000000000000000011204034560000000000000000000000000000000000112040345600000000000000000000103072232200001120403456000000000000000000001065955210521411204034561057654386000000000000000000000000112040345600000000001059331873000000000000001120403456000000000000000000000000000000000011204034560000000000000000000000000000000000112040345600000000000000000000000000000000001120403456108438339410133841121061122656521511204034560000000000000000000010544323160000112040345600000000000000000000000000000000001120403456000000000000000000000000000000000011204034560000000000110365402710432092775216)
 (.leaf 11204034560000000000000000000010351974490000112040345600000000000000000000000000000000001120403456000000000000000000000000000000000011204034560000000000107517711510601628610000112040345600000000000000000000000000000000001120403456107639820700000000000000000000000011204034561066832925106888062600000000000000112040345600000000001059021495000000000000001120403456000000000000000000000000000000000011204034560000000000000000000000000000000000111568486400000000000000000000106474706900001077936128000000000000000000001037796841000011104419840000000000000000000000000000000000111896166400000000000000000000000000000000001120403456000000000000000000000000000000000011204034560000000000000000000000000000000000))
 (.node 1 (.leaf 11204034560000000000000000000000000000000000112040345600000000000000000000000000000000001120403456000000000000000000000000000000000011204034560000000000000000000000000000000000112040345600000000000000000000101766228700001118568448000000000000000000000000000000000010968104960000000000000000000000000000000000112040345600000000000000000000000000000000001107558400000000000000000000000000000000000011204034560000000000000000000000000000000000112040345600000000000000000000000000000000001120403456000000000000000000001030066349521711204034560000000000108417326810390654760000112040345600000000001097571972106561518400001120403456000000000000000000000000000000000011204034561113263150000000000000000000000000)
 (.leaf 11204034561118180737000000000000000000000000112040345600000000000000000000000000000000001120403456000000000000000000000000000000000011204034560000000000000000000000000000000000112040345600000000000000000000000000000000001120403456000000000000000000000000000000521811204034560000000000000000000000000000000000112040345600000000000000000000000000000000001120403456000000000000000000001025139200000010905190400000000000000000000000000000000000112040345600000000000000000000000000000000001120403456000000000000000000000000000000000011204034560000000000107155323610594889610000112040345600000000000000000000000000000000001120403456000000000000000000000000000000000011204034561015365702109993750700000000000000)))
 (.node 2 (.node 1 (.leaf 11204034561080093040000000000000000000000000112040345610777605210000000000000000000000001120403456000000000000000000000000000000000011204034560000000000000000000000000000000000112040345600000000000000000000000000000000001120403456106737478710348857921063230969000011204034560000000000000000000000000000000000111411200000000000000000000000000000000000001120403456000000000000000000000000000000000011204034560000000000000000000000000000000000112040345600000000000000000000000000000000001120403456000000000000000000000000000000000011204034560000000000000000000000000000000000112040345600000000000000000000000000000000001120403456105850276000000000000000000000000011204034560000000000000000000000000000000000)
 (.leaf 11204034560000000000000000000000000000000000112040345600000000000000000000104927691400001120403456000000000000000000000000000000000011204034560000000000000000000000000000000000111791308800000000000000000000000000000000001120403456108561182800000000000000000000000011204034561079009543109509691300000000000000112040345600000000000000000000000000000000001120403456000000000000000000000000000000000011204034560000000000000000000000000000000000112040345610489836861064353294000000000000001090519040000000000010730581521059829639000011204034560000000000000000000010582030940000111280128000000000000000000000000000000000001120403456000000000000000000000000000000000011204034560000000000000000000000000000000000))
 (.node 1 (.leaf 11204034560000000000000000000000000000000000112040345600000000000000000000000000000000001120403456000000000000000000000000000000000011204034560000000000000000000000000000000000112040345600000000000000000000000000000000001120403456000000000000000000000000000000000011204034560000000000000000000000000000000000111358771200000000000000000000000000000000001107558400000000000000000000000000000000000011204034560000000000000000000000000000000000112040345600000000000000000000000000000000001120403456000000000000000000000000000000000011204034560000000000000000000000000000000000112040345600000000000000000000104712779800001120403456000000000000000000000000000000000011204034560000000000000000000000000000000000)
 (.leaf 11204034560000000000000000000000000000000000112040345600000000000000000000000000000000001120403456000000000000000000000000000000000011204034560000000000000000000000000000000000112040345600000000000000000000000000000000001120403456000000000000000000000000000000000011204034561099548896101499472400000000000000112040345600000000000000000000000000000000001120403456000000000000000000000000000000000011204034560000000000000000000000000000000000112040345600000000000000000000000000000000001120403456109423577300000000000000000000000011204034560000000000000000000000000000000000112040345600000000000000000000000000000052191120403456000000000010621722560000000000000011196170240000000000107403878100000000000000))))
 (.node 4 (.node 2 (.node 1 (.leaf 11179130880000000000106328458500000000000000112040345600000000000000000000000000000000001120403456102812578209767158281029258700522011204034560000000000000000000000000000000000112040345600000000000000000000000000000000001120403456000000000000000000000000000000000011204034560000000000000000000000000000000000112040345600000000000000000000000000000000001120403456000000000000000000000000000000000011204034560000000000000000000000000000000000110991769600000000000000000000000000000000001120010240000000000000000000000000000000000011204034560000000000000000000000000000005221112040345600000000000000000000000000000000001120403456000000000000000000000000000000000011204034560000000000105410577000000000000000)
 (.leaf 11204034560000000000106739332500000000000000112040345600000000001071178265000000000000001120403456103631024400000000000000000000000011204034561090164498000000000000000000005222112040345600000000000000000000000000000000001120403456000000000000000000000000000000000011204034560000000000000000000000000000000000112040345600000000000000000000000000000000001120403456000000000000000000000000000000000011204034561095430059000000000000000000000000112040345600000000000000000000000000000000001120403456000000000000000000000000000000000011204034560000000000000000000000000000000000110991769600000000000000000000000000000000001120403456110908688711031598860000000000000011204034560000000000000000000000000000000000))
 (.node 1 (.leaf 11204034561073976525109869688400000000000000112040345600000000000000000000000000000000001120403456000000000000000000000000000000522311204034560000000000000000000000000000000000112040345611024239421076622053000000000000001120403456000000000000000000000000000000000011204034560000000000000000000010402465310000111489843200000000000000000000000000000000001120403456000000000000000000000000000000000011204034560000000000000000000000000000000000112040345610527068191036241391000000000052241120403456000000000000000000000000000000000011141120000000000000000000000010347365310000112040345600000000000000000000000000000000001120403456000000000000000000000000000000000010994319360000000000000000000010406940170000)
 (.leaf 11020533760000000000000000000000000000000000111856844800000000000000000000000000000000001120403456000000000000000000000000000000000011204034560000000000106910124600000000000000112040345600000000000000000000000000000000001120403456000000000000000000000000000000000011204034560000000000000000000000000000000000112040345600000000000000000000000000000000001120403456000000000000000000000000000000000011204034560000000000000000000000000000000000109051904000000000000000000000000000000000001120403456000000000000000000000000000000000011204034560000000000000000000000000000000000112040345611082264481108277487000000000000001120403456105830953710168871940000000000000011204034561084482453000000000000000000000000)))
 (.node 2 (.node 1 (.leaf 11204034560000000000000000000000000000000000112040345600000000000000000000000000000000001120403456000000000000000000000000000000522511204034560000000000000000000000000000000000112040345600000000000000000000000000000000001120403456110189498200000000000000000000000011204034560000000000000000000010828934440000111712665600000000000000000000107096921200001116078080000000000000000000000000000000000011204034560000000000000000000000000000000000112040345600000000000000000000000000000000001120403456107774198200000000000000000000000011204034560000000000000000000000000000000000112040345600000000000000000000000000000000001090519040000000000000000000000000000000000010863247361075640254101645769800000000000000)
 (.leaf 11204034560000000000000000000000000000000000112040345600000000001083743561104424847800001120403456000000000010766476381050881631000011204034560000000000000000000000000000000000112040345600000000000000000000000000000000001120403456112040345600000000000000000000000011204034560000000000000000000000000000000000112040345600000000000000000000000000000000001120403456000000000000000000000000000000000011204034560000000000000000000000000000005226112040345600000000000000000000000000000000001120403456105020399400000000001032137969000011204034560000000000000000000000000000000000110519910400000000001055451303000000000000001120403456099931755710737669900000000000000011204034561066352970111454959700000000000000))
 (.node 1 (.leaf 11204034560000000000000000000000000000000000112040345610595411860000000000000000000000001120403456000000000000000000000000000000000011204034560000000000000000000000000000000000112040345600000000000000000000000000000052271120403456000000000000000000001028722423000011204034560000000000000000000000000000005228112040345610947428941052921299000000000052291120403456000000000010997131121044919998000011141120000000000000109069237010685854700000112040345600000000000000000000000000000000001120403456000000000000000000001040975767000011204034560000000000000000000010216056930000112040345600000000001063239287000000000000001114898432000000000000000000000000000000000011204034560000000000000000000000000000000000)
 (.leaf 11204034560000000000000000000010234613360000112040345600000000000000000000000000000000001120403456000000000000000000000000000000000011204034560000000000000000000000000000000000112040345600000000000000000000000000000000001120403456000000000000000000000000000000000011204034560000000000000000000000000000000000112040345600000000000000000000000000000000001120403456000000000000000000000000000000000011204034560000000000000000000010183363930000112040345600000000000000000000103706716900001120403456000000000000000000000000000000000011204034560000000000105631700700000000005230112040345600000000000000000000000000000000001120403456000000000000000000000000000000000011204034560000000000109333352300000000000000)))))
 (.node 8 (.node 4 (.node 2 (.node 1 (.leaf 11204034561114581037000000000000000000000000112040345600000000000000000000000000000000001120403456000000000000000000000000000000000011204034560000000000000000000000000000005231112040345600000000000000000000000000000000001120403456000000000000000000000000000000000011204034561091079968000000000000000000000000112040345600000000000000000000000000000000001120403456000000000000000000000000000000000011204034560000000000000000000000000000000000112040345600000000000000000000000000000000001120403456000000000000000000000000000000523211204034560000000000000000000000000000000000112040345600000000000000000000000000000052331120403456000000000000000000001053680754000010779361280000000000000000000010414949910000)
 (.leaf 11204034560000000000000000000000000000000000112040345600000000000000000000000000000000001120403456000000000000000000000000000000000011204034560000000000000000000000000000000000112040345610360282530000000000000000000000001120403456000000000000000000000000000000000011204034560000000000000000000000000000000000112040345600000000000000000000103900106700001120403456000000000000000000001057045428000011204034560000000000000000000000000000000000109943193600000000000000000000102816947400001120403456000000000000000000000000000000000011204034560000000000000000000000000000000000112040345600000000000000000000000000000000001120403456000000000000000000000000000000523411204034560000000000000000000010415808870000))
 (.node 1 (.leaf 11204034560000000000000000000010453214770000112040345600000000000000000000105228589800001120403456000000000000000000000000000000000011204034560000000000000000000000000000000000112040345600000000000000000000000000000000001120403456000000000010498141590000000000000011204034560000000000107724700400000000000000112040345610748965870000000000000000000000001120403456000000000000000000000000000000523511204034560000000000000000000000000000000000112040345600000000000000000000104941301852361120403456107385841300000000001054917973000011204034560000000000000000000010354830410000112040345600000000000000000000000000000000001102053376000000000000000000000000000000000011135877120000000000000000000000000000000000)
 (.leaf 11204034560000000000000000000000000000000000112040345600000000000000000000000000000000001120403456000000000000000000000000000000000011204034560000000000000000000000000000000000110755840000000000000000000000000000000000001120403456000000000000000000000000000000000011204034560000000000000000000000000000000000112040345600000000000000000000000000000000001120403456000000000000000000000000000000000011204034560000000000000000000000000000000000112040345611087358070000000000000000000000001120403456000000000000000000000000000000000011204034560000000000000000000010351144070000112040345600000000000000000000104159212052371120403456000000000000000000000000000000523811204034560000000000000000000010339483970000)))
 (.node 2 (.node 1 (.leaf 11141120000000000000000000000010351455580000112040345600000000001040777950000000000000001120403456000000000000000000000000000000000011204034560000000000000000000000000000000000112040345600000000000000000000000000000052391120403456000000000000000000000000000000000011204034560000000000000000000000000000005240112040345600000000000000000000000000000052411112014848000000000010854124751059187036000011204034560000000000000000000010195532600000112040345600000000000000000000000000000000001120403456000000000000000000000000000000000011075584001030297424000000000010654003360000112040345600000000000000000000000000000000001120403456000000000000000000000000000000000011204034560000000000000000000000000000000000)
 (.leaf 11204034560000000000000000000000000000000000112040345600000000000000000000000000000000001120403456000000000000000000000000000000000011204034560000000000000000000000000000000000112040345600000000000000000000000000000052421120403456000000000000000000000000000000000011204034560000000000105920101100000000000000112040345600000000000000000000000000000000001120403456110047928000000000000000000000000011204034560000000000000000000000000000000000112040345600000000000000000000000000000000001120403456000000000000000000000000000000000011167334400000000000000000000010459086910000112040345600000000000000000000000000000000001120403456000000000000000000000000000000000011204034561105886526000000000000000000000000))
 (.node 1 (.leaf 11204034560000000000000000000000000000005243112040345600000000000000000000000000000000001120403456106683809211088468640000000000000010905190400000000000000000000000000000000000112040345600000000000000000000000000000000001120403456000000000000000000000000000000000010779361280000000000000000000010448892890000111358771200000000000000000000000000000052441116733440000000000000000000000000000000000011204034560000000000000000000000000000000000112040345600000000000000000000000000000000001120403456000000000000000000000000000000000011204034560000000000000000000000000000000000112040345600000000000000000000000000000000001120403456000000000000000000000000000000000011204034560000000000000000000000000000000000)
 (.leaf 11204034560000000000000000000000000000000000112040345600000000000000000000000000000000001120403456000000000000000000000000000000000011204034560000000000000000000000000000000000112040345600000000000000000000000000000000001120403456000000000000000000000000000000000011204034560000000000000000000000000000000000112040345600000000000000000000000000000000001120403456000000000011026664260000000000000011204034560000000000000000000000000000000000112040345600000000000000000000000000000000001120403456000000000000000000000000000000000011204034560993518814000000000000000000005245112040345600000000000000000000000000000052461120403456000000000000000000000000000000000011204034560000000000000000000000000000000000))))
 (.node 4 (.node 2 (.node 1 (.leaf 11204034560000000000000000000000000000000000112040345600000000000000000000000000000052471120403456000000000000000000000000000000000011204034560000000000000000000000000000000000112040345610730516681082514421000000000000001120403456109899106700000000000000000000000011204034560000000000000000000000000000005248112040345600000000000000000000000000000052491120403456000000000000000000000000000000000011204034560000000000000000000000000000005250110048051200000000000000000000000000000000001120403456000000000000000000000000000000000011204034560000000000000000000000000000000000112040345600000000000000000000000000000000001120403456000000000000000000000000000000000011204034560000000000000000000000000000000000)
 (.leaf 11204034560000000000000000000000000000000000112040345600000000001045750717000000000000001120403456000000000000000000000000000000000011204034560000000000000000000000000000000000112040345600000000000000000000000000000000001120403456000000000000000000000000000000000011204034560000000000000000000000000000000000110991769600000000000000000000000000000000001120403456000000000000000000000000000000000011204034560000000000000000000010407735320000112040345600000000000000000000000000000052511120403456000000000000000000000000000000000011204034560000000000000000000000000000000000112040345600000000000000000000000000000000001120403456000000000000000000000000000000000011204034560000000000000000000000000000000000))
 (.node 1 (.leaf 11204034560000000000000000000010422676395252112040345600000000000000000000103235224700001120403456000000000000000000001043162709000010779361280000000000000000000000000000000000112040345600000000000000000000000000000000001120403456000000000000000000000000000000000011204034560000000000000000000000000000000000112040345600000000000000000000000000000000001120403456000000000000000000000000000000000011204034560000000000000000000000000000000000112040345600000000000000000000000000000000001120403456000000000000000000000000000000525311204034560000000000000000000000000000000000110913126410740130531086047493105839494400001120403456000000000000000000000000000000000011204034560000000000000000000000000000000000)
 (.leaf 11204034560000000000000000000000000000000000112040345600000000000000000000000000000000001120403456000000000000000000000000000000000011204034560000000000000000000000000000000000112040345600000000000000000000000000000000001120403456000000000000000000000000000000000011204034560000000000000000000000000000000000112040345600000000000000000000000000000000001120403456000000000000000000000000000000000011204034560000000000000000000000000000000000112040345600000000000000000000000000000000001120403456000000000000000000000000000000525411204034560000000000000000000010417794055255112040345600000000000000000000000000000000001120403456000000000000000000000000000000000011204034561108273872102643007510517692300000)))
 (.node 2 (.node 1 (.leaf 11204034561089105279000000000000000000000000112040345600000000000000000000000000000000001120403456000000000000000000000000000000000011204034560000000000000000000000000000000000112040345600000000000000000000000000000000001120403456000000000000000000000000000000525611204034560000000000000000000000000000000000112040345600000000000000000000000000000000001120403456108922694910529514980000000000000011204034560000000000000000000000000000000000111961702410934034200000000000000000000000001106771968000000000000000000000000000000000011204034560000000000000000000000000000000000112040345600000000000000000000000000000000001120403456000000000000000000000000000000000011204034560000000000000000000000000000000000)
 (.leaf 11204034560000000000000000000000000000000000112040345600000000000000000000000000000000001120403456000000000000000000000000000000000011204034560000000000000000000000000000000000112040345600000000000000000000000000000000001120403456000000000000000000000000000000000011204034560000000000000000000000000000000000112040345600000000000000000000000000000000001120403456000000000000000000000000000000000011020533760000000000000000000010355137590000110677196800000000000000000000000000000000001120403456000000000000000000000000000000000011204034560000000000000000000000000000000000112040345611042644370000000000000000000000001120403456000000000000000000000000000000000011204034560000000000000000000000000000000000))
 (.node 1 (.leaf 11204034560000000000000000000000000000000000112040345600000000000000000000000000000000001120403456000000000000000000000000000000000011204034560000000000000000000000000000000000112040345600000000000000000000000000000000001120403456000000000000000000000000000000000011204034560000000000000000000000000000000000112040345600000000000000000000000000000000001120403456000000000000000000000000000000000011204034560000000000105606199400000000000000112040345610694782131070497949105212746700001102053376000000000000000000000000000000000011204034560000000000000000000000000000000000112040345600000000000000000000000000000000001116733440000000000010805575680000000000000011204034560000000000000000000000000000000000)
 (.leaf 11204034560000000000000000000000000000000000112040345600000000000000000000000000000000001120403456000000000010652038990000000000000011204034560000000000000000000000000000000000112040345600000000000000000000000000000000001120403456000000000000000000000000000000000011204034560000000000000000000000000000000000112040345600000000000000000000000000000000001120403456000000000000000000000000000000000011204034560000000000000000000000000000000000112040345610927549821112674481105236009600001120403456000000000010853147481048971805000011204034561073568868110998724300000000000000112040345600000000000000000000102733991000001120403456000000000000000000000000000000000011204034561087602942109958738700000000000000))))))))))
 (.node 256 (.node 128 (.node 64 (.node 32 (.node 16 (.node 8 (.node 4 (.node 2 (.node 1 (.leaf 11204034560000000000000000000000000000000000112040345600000000000000000000000000000052571120403456000000000000000000000000000000000011204034560000000000000000000000000000005258112040345600000000000000000000000000000000001120403456000000000000000000000000000000000011204034560000000000000000000000000000000000112040345600000000000000000000000000000000001120403456000000000000000000000000000000000011204034561092921997100930389300000000000000112001024000000000001084661485103964054900001120403456000000000000000000000000000000000011204034560000000000000000000000000000000000112040345600000000000000000000000000000000001120403456000000000000000000000000000000000011204034560000000000000000000000000000000000)
 (.leaf 11204034560000000000108115357900000000000000112040345600000000000000000000000000000000001120403456000000000000000000000000000000000011204034561070363488000000000000000000000000112040345600000000000000000000000000000000001120403456000000000000000000001024879310000011204034560000000000000000000000000000000000112040345600000000000000000000000000000000001120403456000000000010559680410000000000000011204034560000000000109483445500000000000000112040345600000000001100922329000000000000001120403456112022240810489920751066350392000011204034561104533287107369568700000000000000112040345600000000000000000000000000000000001120403456000000000000000000000000000000000011204034560000000000000000000000000000005259))
 (.node 1 (.leaf 11204034560000000000000000000000000000000000112040345600000000000000000000000000000000001120403456000000000000000000000000000000000011204034560000000000000000000000000000000000112040345600000000000000000000000000000000001120403456000000000000000000000000000000000011204034560000000000000000000000000000000000112040345600000000000000000000101940077852601120403456000000000000000000000000000000000010994319360000000000000000000010574105480000112040345600000000000000000000000000000000001120403456000000000000000000000000000000000011204034560000000000000000000000000000000000112040345600000000001048012286000000000000001120403456000000000000000000000000000000000011204034560000000000000000000000000000000000)
 (.leaf 11204034560000000000000000000000000000000000112040345600000000000000000000000000000000001120403456000000000000000000000000000000000011204034560000000000000000000000000000000000112040345600000000000000000000104353315900001120403456000000000000000000000000000000000011204034560000000000000000000000000000000000112040345600000000000000000000000000000000001110441984000000000000000000000000000000000011204034560000000000106670042610257177540000112040345611045529941058966130000000000000001120403456000000000000000000000000000000000011204034561096272616107118246000000000000000112040345600000000000000000000000000000000001120403456000000000000000000000000000000000011204034560000000000000000000000000000000000)))
 (.node 2 (.node 1 (.leaf 11204034560000000000000000000000000000000000112040345600000000000000000000000000000000001120403456000000000000000000000000000000000011204034560000000000000000000000000000005261112040345611107606031049898045106709224400001120403456000000000000000000000000000000000011204034560000000000000000000000000000000000111751987200000000000000000000105388439700001120403456000000000000000000000000000000000011204034560000000000000000000000000000000000112040345600000000000000000000000000000000001120403456000000000000000000000000000000000011204034560000000000000000000000000000000000112040345600000000000000000000000000000000001120403456000000000000000000000000000000000011204034560000000000000000000000000000000000)
 (.leaf 11204034560000000000000000000000000000000000112040345600000000000000000000000000000000001120403456000000000000000000000000000000000010968104960000000000000000000000000000000000112040345611169743890000000000000000000000001120403456000000000000000000000000000000000011204034560000000000000000000000000000000000112040345600000000000000000000000000000000001120403456000000000000000000001018235979000011204034561118558853000000000000000000000000112040345600000000000000000000000000000000001120403456106202748500000000001051790507000011204034560000000000000000000000000000000000112040345600000000000000000000000000000000001120403456000000000010586372960000000000000011204034560000000000110043101900000000000000))
 (.node 1 (.leaf 11204034560000000000000000000000000000000000112040345600000000000000000000000000000000001120403456000000000000000000000000000000526211204034561082659493000000000000000000000000112040345600000000000000000000000000000052631120403456000000000000000000001044754688000011204034561104739143105070670610670661430000112040345600000000000000000000000000000000001120403456000000000000000000000000000000000011204034560000000000106770538200000000000000112040345600000000000000000000000000000000001120403456000000000000000000000000000000000011204034560000000000000000000000000000000000112040345610683652301021933781000000000000001120403456000000000000000000000000000000000011204034560000000000000000000000000000000000)
 (.leaf 11204034560000000000000000000000000000000000112040345600000000000000000000000000000000001120403456000000000000000000000000000000000011204034561091344740107191394600000000000000112040345600000000000000000000102497582600001120403456000000000000000000000000000000000011204034561111003605000000000000000000000000112040345600000000000000000000000000000052641120403456000000000000000000000000000000000011204034560000000000000000000000000000000000112040345600000000000000000000000000000052651120403456000000000000000000000000000000526611204034560000000000000000000000000000005267112040345600000000000000000000000000000052681118175232000000000000000000000000000000000011091312640000000000000000000000000000000000))))
 (.node 4 (.node 2 (.node 1 (.leaf 11204034560000000000000000000000000000000000112040345600000000000000000000000000000000001120403456000000000010805361770000000000000011204034560000000000000000000000000000000000112040345600000000000000000000000000000000001120403456000000000000000000000000000000000011204034560000000000000000000010388879620000112040345600000000000000000000000000000000001120403456000000000000000000000000000000000011204034560000000000000000000000000000000000112040345600000000000000000000000000000000001120403456000000000000000000000000000000000011204034560000000000000000000000000000000000112040345600000000000000000000000000000000001120403456000000000000000000000000000000000011204034560000000000107493636200000000000000)
 (.leaf 11204034561103123478000000000000000000000000112040345600000000000000000000000000000000001120403456000000000000000000000000000000000011204034560000000000000000000000000000000000112040345600000000000000000000000000000000001120403456000000000000000000000000000000000011204034560000000000000000000000000000005269112040345600000000000000000000000000000052701120403456000000000000000000000000000000527111204034560000000000000000000000000000000000112040345600000000000000000000000000000000001120403456000000000010858860120000000000000011204034560000000000000000000000000000000000112040345600000000001083056534000000000000001120403456000000000009767158280000000000000011204034560000000000000000000000000000000000))
 (.node 1 (.leaf 11204034560000000000000000000000000000000000112040345600000000000000000000000000000000001120403456000000000000000000000000000000000011204034560000000000000000000000000000000000112040345600000000000000000000000000000000001120403456000000000000000000000000000000000011204034561104715434108291518610405251960000112040345600000000001074428012000000000000001120403456105784755911026984081020632842000011204034560000000000000000000000000000000000112040345600000000000000000000000000000000001120403456000000000000000000000000000000000011204034560000000000000000000000000000000000112040345600000000000000000000000000000000001120403456000000000000000000000000000000000011204034560000000000000000000000000000000000)
 (.leaf 11204034560000000000000000000000000000000000112040345600000000000000000000000000000052721120403456000000000000000000000000000000000011204034560000000000000000000000000000000000112040345600000000000000000000000000000000001120403456000000000000000000000000000000000011204034560000000000000000000000000000000000112040345600000000000000000000000000000000001120403456000000000000000000000000000000000011204034560000000000000000000000000000000000112040345600000000000000000000000000000000001120403456000000000000000000000000000000000011204034560000000000000000000000000000000000112040345600000000000000000000000000000000001120403456000000000010749455891074056393000011204034560000000000000000000010410647850000)))
 (.node 2 (.node 1 (.leaf 11204034560000000000000000000000000000000000112040345600000000000000000000000000000052731120403456000000000000000000001039068179000011204034560000000000000000000000000000000000112040345600000000000000000000000000000000001120403456000000000000000000000000000000000011204034560000000000000000000000000000005274112040345600000000000000000000000000000000001120403456000000000000000000001043559538000011204034561115494567000000000000000000000000112040345600000000000000000000000000000000001120403456000000000000000000000000000000000011204034560000000000000000000000000000005275111489843200000000000000000000000000000000001120403456000000000000000000000000000000000011204034560000000000000000000000000000000000)
 (.leaf 11204034560000000000000000000000000000000000112040345600000000000000000000000000000000001114898432000000000000000000000000000000000011204034560000000000000000000000000000000000112040345600000000000000000000000000000000001120403456000000000010539749080000000000000011204034560000000000109194384500000000000000112040345600000000000000000000000000000000001120403456000000000000000000000000000000000011204034560000000000000000000000000000000000112040345600000000000000000000000000000000001120403456000000000000000000000000000000000011204034560000000000000000000000000000000000112040345600000000000000000000000000000000001120403456000000000000000000001019067892000011204034560000000000000000000000000000000000))
 (.node 1 (.leaf 11204034560000000000000000000010159170660000112040345600000000000000000000000000000000001120403456000000000000000000000000000000000011204034560000000000000000000010334380230000112040345600000000000000000000105440081300001117913088000000000000000000000000000000000011204034560000000000000000000000000000000000112040345610671583940000000000000000000000001120403456000000000000000000000000000000000011204034560000000000000000000010351680305276112040345600000000000000000000000000000000001120403456000000000000000000000000000000527711204034560000000000000000000000000000005278112040345600000000000000000000000000000000001120403456000000000000000000000000000000000011204034560000000000000000000000000000000000)
 (.leaf 11204034560000000000105815579000000000000000112040345600000000000000000000000000000000001120403456000000000000000000000000000000000011204034560000000000000000000000000000000000112040345600000000000000000000000000000000001120403456000000000000000000000000000000000011204034560000000000000000000010354048215279111961702400000000001075453100000000000000001120403456000000000000000000000000000000000011204034560000000000107010536210630907240000112040345600000000001051384506000000000000001120403456000000000000000000000000000000000011204034560000000000000000000000000000000000112040345600000000000000000000000000000000001120403456000000000000000000000000000000000011204034560000000000000000000000000000005280)))))
 (.node 8 (.node 4 (.node 2 (.node 1 (.leaf 11204034561073013533000000000000000000005281112040345600000000000000000000000000000052821120403456000000000000000000000000000000000011204034560000000000000000000010048689250000112040345600000000000000000000000000000000001120403456000000000000000000000000000000528311204034560000000000000000000000000000000000112040345600000000000000000000000000000000001120403456108535613710656157791052476424528411204034560000000000109968532400000000000000112040345600000000001035154227000000000000001120403456000000000010725204430000000000000011204034560000000000000000000000000000000000112040345600000000000000000000000000000000001120403456000000000000000000000000000000000011204034560000000000000000000000000000000000)
 (.leaf 11204034560000000000000000000000000000000000112040345600000000000000000000000000000000001120403456000000000000000000000000000000000011167334400000000000000000000010421523515285110913126400000000000000000000000000000000001120403456000000000010283359671013489825000011204034560000000000000000000010571644930000112040345611177524381052508579107524570400001120403456111823682610605348001081183675528611204034561013886623000000000000000000000000112040345600000000000000000000000000000000001120403456000000000000000000000000000000000011148984320000000000000000000010608774175287112040345600000000000000000000000000000000001120403456000000000000000000001023545576000011204034560000000000000000000010270535370000))
 (.node 1 (.leaf 11204034560000000000000000000000000000005288112040345600000000000000000000000000000052891120403456000000000000000000000000000000000011091312640000000000000000000010638486680000112040345600000000000000000000000000000000001120403456000000000000000000000000000000000011204034560000000000000000000000000000000000112040345600000000000000000000000000000000001120403456000000000010738655560000000000000011204034560000000000000000000000000000000000112040345600000000000000000000000000000000001120403456000000000000000000000000000000000011204034560000000000000000000000000000000000112040345600000000000000000000102538416500001120403456000000000000000000001048057942000011204034560000000000000000000010021813695290)
 (.leaf 10863247360000000000000000000010383572970000112040345600000000000000000000000000000000001120403456000000000000000000001031597579000011204034560000000000000000000000000000000000112040345600000000000000000000102344537800001120403456107448741600000000000000000000000011204034561114624812105706191610744897730000112040345610286264140000000000105964174500001120403456000000000000000000000000000000529111204034560000000000000000000010210832290000112040345600000000000000000000000000000000001120403456000000000000000000001057056395529211204034560000000000000000000000000000005293112040345600000000000000000000000000000052941120403456000000000000000000000000000000529511196170240000000000000000000010573796010000)))
 (.node 2 (.node 1 (.leaf 11204034561050175406109626146200000000000000112040345600000000001051065739000000000000001120403456000000000010872145580000000000000011204034561100100624102994657900000000000000112040345600000000000000000000000000000000001120403456000000000000000000001034790261000011204034560000000000000000000000000000000000112040345600000000000000000000105732852452961118175232000000000000000000000000000000000011204034560000000000000000000000000000000000112040345600000000000000000000000000000000001120403456000000000000000000000000000000000011204034561114164642000000000000000000000000112040345600000000000000000000000000000000001120403456000000000000000000000000000000000011167334400000000000000000000010797675635297)
 (.leaf 10994319360000000000000000000000000000000000112040345600000000000000000000000000000000001120403456107007676610716975200000000000000011204034560000000000000000000000000000005298112040345600000000000000000000000000000000001120403456000000000000000000000000000000000011204034561108607139101618926200000000000000112040345600000000000000000000000000000000001120403456106472964010660528260000000000000011204034560000000000000000000000000000000000112040345600000000000000000000000000000000001120403456000000000000000000000000000000000011204034560000000000000000000000000000005299112040345600000000000000000000000000000000001120403456109720860610873462590000000000000011204034561103259928103406706410556998610000))
 (.node 1 (.leaf 11204034560978519715109213007210506536660000112040345611109061431026644823103520916800001120403456106459738600000000001040196452000011204034560000000000000000000010342761130000112040345600000000000000000000105070430500001120403456000000000000000000000000000000000011204034560000000000109788413300000000000000112040345600000000000000000000000000000053001120403456000000000000000000000000000000000011204034560000000000000000000000000000005301112040345600000000000000000000000000000000001120403456000000000000000000000000000000000011204034561095768030102371887700000000000000112040345600000000000000000000000000000000001120403456000000000000000000000000000000000011204034560000000000000000000000000000000000)
 (.leaf 11204034560000000000000000000000000000000000112040345600000000000000000000102513636953021120403456000000000000000000000000000000000011204034560000000000000000000000000000005303112040345600000000000000000000000000000053041120403456000000000000000000000000000000000011204034560000000000000000000000000000000000112040345600000000000000000000000000000053051120403456000000000000000000000000000000000011204034561087286066107306318610692562530000112040345611132183831033154383106874037400001120403456000000000000000000001060437331000011091312640000000000000000000000000000000000112040345610673934600000000000000000000000001120403456000000000010903942590000000000530611204034560000000000000000000000000000000000))))
 (.node 4 (.node 2 (.node 1 (.leaf 11204034560000000000000000000000000000000000112040345600000000000000000000000000000000001120403456000000000000000000000000000000000011204034560000000000000000000000000000000000112040345600000000000000000000000000000000001120403456000000000000000000000000000000000011204034560000000000000000000000000000000000112040345600000000000000000000000000000000001120403456000000000000000000000000000000000011204034560000000000000000000000000000000000112040345600000000000000000000000000000000001120403456000000000000000000000000000000000011204034561063588656000000000000000000000000112040345600000000000000000000000000000000001120403456111066763000000000000000000000000011204034560000000000000000000000000000005307)
 (.leaf 11204034560000000000000000000000000000000000112040345600000000000000000000105988309100001120403456000000000000000000000000000000000011185684481079803420103593269010744838950000111817523200000000000000000000000000000000001120403456000000000000000000000000000000000011204034560000000000000000000000000000000000112040345610532307710000000000000000000000001120403456000000000000000000000000000000000011204034560000000000000000000000000000000000111607808000000000000000000000000000000000001120403456000000000000000000000000000000000011204034560000000000000000000000000000000000112040345600000000000000000000000000000000001120403456000000000000000000000000000000000011204034560000000000000000000000000000000000))
 (.node 1 (.leaf 11204034560000000000000000000000000000000000112040345610617126100000000000000000000000001120403456000000000000000000000000000000000011204034561067190288000000000000000000005308112040345600000000000000000000105476014500001120403456000000000000000000000000000000000011204034560000000000000000000000000000005309112040345600000000000000000000000000000000001120403456000000000000000000000000000000531011204034560000000000000000000000000000005311112040345610969246090000000000000000000000001120403456000000000000000000000000000000000011004805120000000000000000000010327490860000112040345600000000000000000000102040541600001120403456000000000000000000000000000000000011204034560000000000000000000000000000000000)
 (.leaf 11204034560000000000000000000000000000005312109943193600000000000000000000000000000000001120403456000000000010759308311045527083000011204034560000000000000000000000000000000000112040345600000000001043589811000000000000001120403456000000000000000000000000000000000011204034560000000000000000000000000000000000112040345600000000000000000000000000000000001120403456000000000000000000000000000000000011204034560000000000000000000000000000000000112040345600000000000000000000100353446600001120403456000000000000000000000000000000000011189616640000000000000000000010684334820000112040345600000000000000000000000000000000001120403456000000000000000000001014796787000011204034560000000000000000000000000000000000)))
 (.node 2 (.node 1 (.leaf 11204034560000000000000000000000000000000000112040345600000000000000000000000000000000001120403456000000000000000000000000000000000011204034560000000000000000000010565902140000112040345600000000000000000000000000000000001120403456000000000000000000000000000000000011204034560000000000000000000010245067020000112040345600000000000000000000103378333553131120403456000000000000000000000000000000531411204034560000000000000000000000000000000000111673344000000000000000000000000000000000001120403456000000000000000000000000000000000011204034560000000000000000000000000000000000112040345600000000000000000000000000000000001120403456000000000000000000000000000000000011083448320000000000000000000000000000000000)
 (.leaf 11204034560000000000000000000000000000000000112040345600000000000000000000000000000000001120403456000000000000000000000000000000000011204034560000000000000000000010412815920000112040345611001468410000000000000000000000001120403456000000000000000000000000000000000011204034560000000000000000000000000000000000112040345600000000000000000000104994827300001119617024000000000000000000001020523056000011204034560000000000000000000000000000000000112040345600000000000000000000000000000000001120403456000000000000000000000000000000000011204034560000000000000000000010298929055315112040345600000000001094517051000000000000001120403456000000000000000000001032329624000011204034560000000000000000000000000000000000))
 (.node 1 (.leaf 11204034560000000000000000000000000000000000112040345600000000000000000000000000000053161120403456000000000000000000001036109032531711204034561081317744000000000000000000000000112040345600000000000000000000000000000000001120403456000000000000000000001046514263000011204034560000000000000000000000000000005318112040345600000000000000000000000000000000001120403456109123104210822011060000000000000011204034560000000000000000000000000000000000111607808000000000000000000000000000000000001114898432000000000000000000000000000000000011075584000000000000000000000000000000000000108632473600000000000000000000000000000000001120403456000000000000000000000000000000000011204034561101719794000000000000000000000000)
 (.leaf 11204034560000000000000000000000000000000000112040345600000000000000000000000000000000001120403456000000000000000000000000000000000011204034560000000000000000000010153146470000112040345600000000000000000000000000000000001120403456000000000000000000000000000000000011204034560000000000000000000000000000000000112040345600000000000000000000102382060200001120403456000000000000000000000000000000000011204034560000000000000000000000000000000000112040345610973835101047099605106060847000001120403456103570089600000000000000000000000011204034560000000000000000000000000000005319112040345600000000000000000000000000000000001120403456000000000000000000000000000000000011204034560000000000000000000000000000005320))))))
 (.node 16 (.node 8 (.node 4 (.node 2 (.node 1 (.leaf 11204034560000000000000000000000000000000000112040345600000000000000000000105314673053211120403456000000000000000000001056136613000011204034560000000000101844412000000000000000112040345600000000000000000000000000000000001106771968000000000000000000000000000000000011160780800000000000000000000000000000000000112040345600000000000000000000000000000000001120403456000000000000000000000000000000000011204034560000000000000000000000000000000000112040345600000000000000000000000000000000001120403456000000000000000000001049084832000011204034560000000000000000000000000000000000112040345600000000000000000000000000000000001120403456107920709010513777951047335846000011204034560000000000000000000000000000000000)
 (.leaf 11204034560000000000000000000000000000000000112040345600000000000000000000000000000053221120403456000000000000000000000000000000000011167334400000000000000000000010726600245323112040345600000000000000000000100752029900001120403456000000000000000000000000000000000011204034560000000000000000000000000000000000112040345600000000000000000000000000000000001118175232000000000000000000000000000000000011204034560000000000000000000000000000000000112040345600000000000000000000102945781753241120403456000000000000000000000000000000000011204034560000000000000000000000000000000000112040345600000000000000000000000000000000001120403456000000000000000000001025851870000011204034560000000000000000000010445616740000))
 (.node 1 (.leaf 11204034560000000000109567048410246534470000112040345600000000000000000000107329970400001120403456000000000000000000000000000000000011204034560000000000000000000010509984505325109681049600000000000000000000000000000000001120403456000000000000000000001059912402532611204034560000000000000000000000000000005327111044198400000000000000000000000000000000001120403456000000000000000000000000000000000011204034560000000000105853495500000000000000111817523200000000000000000000000000000000001116078080000000000000000000001056709131000011160780800000000000000000000000000000000000112040345600000000000000000000104249959200001120403456000000000000000000000000000000000011204034560000000000000000000000000000000000)
 (.leaf 11204034560000000000000000000010335434195328112040345600000000000000000000103777219253291120403456000000000000000000001044697234000011204034560000000000000000000000000000000000112040345600000000000000000000000000000000001120403456000000000010879301060000000000000011204034560000000000108746642600000000000000112040345600000000000000000000107458233100001120403456000000000000000000001018563822000011204034560000000000000000000000000000000000112040345600000000000000000000102709256300001120403456000000000000000000000000000000000011204034560000000000000000000000000000000000111122841600000000000000000000000000000000001116733440000000000000000000000000000000000011204034560000000000000000000000000000000000)))
 (.node 2 (.node 1 (.leaf 11204034560000000000000000000000000000000000112040345600000000000000000000000000000053301120403456000000000000000000001039980943533111204034560000000000000000000000000000000000112040345600000000000000000000000000000053321120403456000000000000000000000000000000000011204034560000000000000000000000000000000000111568486400000000001084536914103290742700001120403456000000000000000000001068853064000011204034560000000000000000000010615893550000109681049600000000000000000000000000000000001120403456109746809710279870011061129484000011204034560000000000000000000000000000000000112040345600000000001099591529000000000000001120403456000000000000000000000000000000000011204034560000000000000000000000000000000000)
 (.leaf 10779361280000000000000000000010417734920000112040345600000000000000000000000000000000001120403456000000000000000000000000000000000011204034560000000000000000000010620120560000112040345600000000000000000000105569641400001120403456000000000000000000000000000000000011204034560000000000109957947100000000005333112040345600000000000000000000000000000000001120403456000000000000000000000000000000000011204034560000000000000000000000000000000000109366476800000000000000000000000000000053341120403456000000000000000000000000000000000011204034560000000000000000000010392918610000112040345600000000000000000000000000000000001120403456000000000000000000000000000000000011204034560000000000000000000000000000000000))
 (.node 1 (.leaf 11204034560000000000000000000010456775260000112040345600000000000000000000000000000000001120403456000000000000000000000000000000000011204034560000000000106106831500000000000000112040345600000000000000000000103812341700001120403456000000000000000000000000000000000011204034560000000000000000000000000000000000112040345600000000000000000000000000000000001120403456000000000000000000000000000000000010968104960000000000000000000010601400360000112040345600000000000000000000103181822400001120403456000000000000000000001045042332000011204034560000000000000000000000000000000000112040345600000000000000000000000000000000001120403456000000000000000000001085056407000011204034560000000000000000000009505246860000)
 (.leaf 11204034560000000000000000000000000000000000112040345600000000000000000000000000000000001120403456000000000000000000001066090077000011204034560000000000000000000000000000000000112040345600000000000000000000103290503900001120403456000000000000000000000000000000533511204034560000000000000000000010350792100000112040345600000000000000000000000000000000001120403456000000000000000000001035390084000011204034560963305867109487377600000000000000112040345610611105941002096401103893363400001120403456000000000000000000000000000000000011204034560000000000107274945210358311110000112040345600000000000000000000000000000000001120403456000000000000000000001028165670000011204034560000000000000000000010618071950000))))
 (.node 4 (.node 2 (.node 1 (.leaf 11204034560000000000000000000010603370320000112040345600000000000000000000106739725553361120403456000000000000000000000000000000533711204034560000000000000000000000000000000000111961702400000000000000000000104659244500001118175232000000000010878959221056228597533811020533760000000000000000000000000000000000112040345600000000000000000000000000000000001120403456000000000010506530190997871307000011204034560000000000000000000000000000000000112040345600000000000000000000105804779900001120010240000000000000000000001054927445000011204034560000000000000000000000000000000000112040345600000000000000000000104498025753391120403456000000000000000000001025800268534011204034560000000000000000000000000000000000)
 (.leaf 11204034560000000000000000000000000000005341112040345600000000000000000000000000000000001120403456000000000010490591841026227823000011204034560000000000000000000010504137360000112040345600000000000000000000105089275300001120403456000000000000000000001038939189000011204034560000000000000000000010489700400000112001024000000000000000000000103954800500001120403456000000000000000000001081041879534211163402240000000000000000000000000000005343112040345600000000000000000000000000000000001120403456000000000000000000001062555885534411204034560000000000000000000000000000000000112040345600000000000000000000107207493800001120403456000000000000000000001068691485000011148984320000000000000000000010630172890000))
 (.node 1 (.leaf 10968104960000000000000000000000000000000000112040345600000000000000000000000000000053451118961664000000000000000000000000000000000011204034560000000000000000000010693656875346112040345600000000000000000000103267730500001120403456000000000000000000000000000000000011204034561086646353105913893500000000000000112040345600000000000000000000000000000000001120403456000000000000000000000000000000000011051991040000000000000000000010179844600000112040345600000000000000000000108227325853471120403456000000000000000000000000000000000011141120000000000000000000000000000000005348112040345600000000000000000000000000000000001120403456000000000000000000001074342448534911204034560000000000000000000000000000000000)
 (.leaf 11204034561068655199000000000000000000000000112040345600000000001078102642000000000000001113587712000000000000000000001056583554000011204034560000000000000000000000000000000000112040345600000000000000000000102866781253501120403456000000000000000000000000000000000011204034560000000000000000000000000000000000112040345600000000000000000000000000000000001120403456000000000010727083470000000000000011067719680000000000000000000010412198420000112040345600000000000000000000100862965353511120403456000000000000000000001067339332535211204034560000000000000000000000000000000000112040345600000000000000000000105060394100001117519872000000000000000000000000000000000011036262400000000000000000000000000000000000)))
 (.node 2 (.node 1 (.leaf 11141120000000000000000000000000000000000000111634022400000000000000000000102100265053531116340224000000000000000000000000000000000011185684480000000000000000000010798126260000112040345600000000000000000000000000000000001120403456000000000000000000000000000000000011193548800000000000000000000000000000005354112040345600000000000000000000103697972400001120403456000000000000000000001045163541000011204034561062375143000000000000000000000000110677196800000000000000000000104476657200001120403456000000000000000000001083032752000011204034560000000000000000000000000000000000112040345600000000001074716161000000000000001120403456000000000000000000001050077834000011204034560000000000000000000010519019680000)
 (.leaf 11204034560000000000000000000000000000000000110913126400000000000000000000106228707100001120403456000000000000000000001020093116000011148984320000000000000000000010545499420000112040345600000000000000000000000000000000001120403456000000000010812676640000000000000011204034560000000000000000000010502745130000112040345600000000000000000000000000000000001120403456000000000000000000000000000000535511204034560000000000000000000000000000005356111935488010751803320000000000107649051700001120403456000000000000000000001079729972000011204034560000000000106012208010635536325357112040345600000000000000000000000000000000001120010240000000000000000000000000000000000011204034561077489665000000000010591455590000))
 (.node 1 (.leaf 11204034560000000000000000000010510403835358112040345600000000001077431973000000000000001109131264000000000000000000000000000000000011204034561082543852000000000010513438880000112040345600000000000000000000107546891000001120403456000000000000000000001048321846000011204034560000000000000000000010499860160000112040345600000000001052750171107313801900001110441984000000000000000000000000000000000011204034560000000000000000000000000000005359111751987210746007800000000000105207751300001093664768104771888600000000000000000000000011204034560000000000000000000010612709300000112040345600000000000000000000000000000000001120403456000000000000000000001045648874000011204034560000000000000000000000000000000000)
 (.leaf 11175198720000000000000000000000000000000000112040345600000000000000000000103994351553601120403456000000000000000000001041521363000011204034560000000000000000000000000000000000110913126400000000000000000000000000000000001077936128000000000000000000000000000000000011204034560000000000000000000010333798965361112040345600000000000000000000000000000053621109917696000000000000000000001079775847000011204034560000000000000000000010507010670000110205337600000000000000000000000000000000001120403456000000000000000000001040549084536311196170240000000000000000000010407266435364111568486410713256950000000000107485777100001120403456103038815600000000001033459176000011175198720000000000000000000010238216020000)))))
 (.node 8 (.node 4 (.node 2 (.node 1 (.leaf 11112284160000000000000000000010766638850000111751987200000000000000000000000000000000001120403456000000000000000000000000000000000011204034560000000000000000000010583011995365111712665600000000000000000000000000000000001116340224105548227400000000001087504515000011204034560000000000000000000010720581835366112040345600000000000000000000104295779700001120403456108988847510661425840000000000000011185684480000000000105624654310596395370000112040345600000000000000000000104518057000001120403456000000000010689972270000000000000011204034560000000000000000000010798037060000112040345600000000000000000000105958060300001117913088000000000000000000001073015883000011204034560000000000000000000010179411775367)
 (.leaf 11204034560000000000000000000010552951815368112040345600000000000000000000105095312000001120403456000000000000000000000000000000000011185684480000000000000000000010745420610000112040345600000000000000000000106900444500001116078080000000000000000000001075571902000011204034560000000000000000000010500774645369112040345600000000000000000000000000000000001112014848000000000000000000000000000000000011163402240000000000000000000010786314940000112040345600000000000000000000105445433753701120403456000000000000000000001067030842537111204034560000000000000000000010336889850000111568486400000000000000000000106260342900001120403456000000000000000000001025289482000011204034560000000000000000000010648825040000))
 (.node 1 (.leaf 11200102400000000000104575071710495043160000112040345600000000000000000000107812668153721115684864000000000000000000001075796887000011075584000000000000110256859410582358330000112040345600000000000000000000105414256253731118568448000000000000000000000000000000000011185684480000000000000000000000000000005374111280128000000000000000000000105527904600001112014848000000000000000000001078295985000011204034560000000000104402601900000000005375112040345600000000000000000000000000000053761120403456000000000000000000000000000000537711204034560000000000000000000000000000005378112040345600000000001020537917000000000053791120403456000000000000000000000000000000538011204034560000000000000000000000000000005381)
 (.leaf 11204034560000000000000000000000000000005382112040345600000000000000000000000000000053831120403456000000000000000000000000000000000011204034560000000000000000000000000000005384112040345600000000000000000000000000000000001120010240000000000000000000000000000000000011196170240000000000000000000010667182450000112040345600000000000000000000000000000000001120403456000000000000000000001075987696000011204034560000000000000000000000000000000000110913126400000000000000000000000000000000001117126656000000000000000000001044618059000011204034560000000000000000000010436468160000112040345600000000000000000000105842479400001120403456000000000000000000000000000000000011204034560000000000000000000000000000000000)))
 (.node 2 (.node 1 (.leaf 11204034560000000000000000000000000000000000112040345600000000000000000000000000000000001120403456000000000000000000001073485107000011196170240000000000000000000010757695560000111935488000000000000000000000000000000000001120403456000000000000000000000000000000000011204034560000000000000000000000000000000000112040345600000000000000000000000000000000001120403456000000000010581188800000000000000011179130880000000000000000000000000000000000112040345600000000000000000000106400388600001115684864000000000000000000000000000000000011204034560000000000000000000000000000000000111712665600000000000000000000000000000000001118175232000000000000000000001025882472000011204034560000000000000000000010525556670000)
 (.leaf 11204034560000000000000000000000000000000000112040345600000000000000000000105335389600001120403456000000000000000000001054096883000011204034560000000000000000000000000000000000112040345600000000000000000000103102158200001120403456000000000000000000001066301305000011204034561075683078000000000010708797620000112040345600000000000000000000104960877253851116733440000000000000000000000000000000000011112284160000000000000000000000000000000000111607808000000000000000000000000000000000001117519872000000000000000000000000000000000011204034560000000000000000000010748404950000112040345600000000000000000000107464893000001118175232000000000000000000000000000000000011204034560000000000000000000010798006110000))
 (.node 1 (.leaf 11204034560000000000000000000000000000000000112040345600000000000000000000000000000000001117519872000000000000000000001063184663000011204034560000000000000000000000000000000000112040345600000000000000000000104067504400001120403456000000000000000000000000000000000011204034560000000000000000000000000000000000112040345600000000000000000000105961201500001118961664000000000000000000000000000000000011204034560000000000000000000000000000000000112040345600000000000000000000000000000000001120403456000000000000000000000000000000000011204034560000000000000000000000000000000000112040345600000000000000000000000000000000001118568448000000000000000000001045494436000011204034560000000000000000000000000000000000)
 (.leaf 11204034560000000000000000000000000000000000111896166400000000000000000000104000662000001119354880000000000000000000000000000000000011179130880000000000000000000010807166570000112040345600000000000000000000106113379500001120403456000000000000000000001065484418000011204034560000000000000000000010693180510000112040345600000000000000000000000000000000001120403456000000000000000000000000000000000011204034560000000000000000000000000000000000111358771200000000000000000000106104348100001120403456000000000000000000001067294629000011204034560000000000000000000010748653790000112040345600000000000000000000104812350800001120010240000000000000000000001077842328000011179130880000000000000000000010624431160000))))
 (.node 4 (.node 2 (.node 1 (.leaf 11075584000000000000000000000010708095840000111856844800000000000000000000000000000000001120403456000000000000000000000000000000000011204034560000000000000000000000000000000000112040345600000000000000000000000000000000001120403456000000000000000000000000000000000011204034560000000000000000000000000000000000112040345600000000000000000000000000000000001120403456000000000000000000000000000000000011179130880000000000000000000010325337500000111751987200000000000000000000104078308700001120403456000000000000000000000000000000000011200102400000000000000000000000000000000000111358771200000000000000000000000000000000001120403456000000000000000000000000000000000011163402240000000000000000000010563442710000)
 (.leaf 11091312640000000000000000000010654146790000112040345600000000000000000000000000000000001120403456000000000000000000000000000000000011204034560000000000000000000000000000000000112040345600000000000000000000000000000000001120403456000000000000000000000000000000000011204034560000000000000000000000000000000000112040345600000000000000000000000000000000001120403456000000000000000000000000000000000011204034560000000000000000000000000000000000112040345600000000000000000000000000000000001120403456000000000000000000000000000000000011204034560000000000000000000000000000000000112040345600000000000000000000000000000000001120403456000000000000000000000000000000000011204034560000000000000000000000000000000000))
 (.node 1 (.leaf 11204034560000000000000000000000000000000000112040345600000000000000000000108068888900001120403456000000000000000000000000000000000011204034560000000000000000000010857505120000112040345600000000000000000000107768560300001120403456000000000000000000000000000000000011204034560000000000000000000000000000000000112040345600000000000000000000000000000000001120403456000000000000000000000000000000000011204034560000000000000000000000000000000000112040345600000000000000000000000000000000001120403456000000000000000000000000000000000011181752320000000000000000000010485607590000112040345600000000000000000000000000000000001120403456000000000000000000000000000000000011204034560000000000000000000000000000000000)
 (.leaf 11204034560000000000000000000000000000000000112040345600000000000000000000000000000000001120403456000000000000000000000000000000000011204034560000000000000000000000000000000000112040345600000000000000000000104966290400001120403456000000000000000000000000000000000011179130880000000000000000000000000000000000111751987200000000000000000000000000000000001117519872000000000000000000001057721791000011200102401079975487000000000010611067920000112040345600000000000000000000000000000000001120403456000000000000000000000000000000000011204034560000000000000000000000000000000000112040345600000000000000000000000000000000001120403456000000000000000000000000000000000011204034560000000000000000000000000000000000)))
 (.node 2 (.node 1 (.leaf 11204034561081280477000000000010889462265386111673344000000000000000000000106576289300001120403456000000000000000000000000000000000011204034560000000000000000000000000000000000112040345600000000000000000000104191205200001120403456000000000000000000000000000000000011204034560000000000000000000000000000000000112040345600000000000000000000000000000000001120403456000000000000000000000000000000000011204034560000000000000000000000000000000000112040345600000000000000000000000000000000001120403456000000000000000000000000000000000011204034560000000000000000000000000000000000112040345600000000000000000000107722213200001120403456000000000000000000000000000000000011167334400000000000000000000000000000000000)
 (.leaf 11020533760000000000000000000000000000000000110834483200000000000000000000105100453300001109917696000000000000000000001066963659000011112284160000000000000000000010669612150000111751987200000000000000000000106877816000001106771968000000000000000000000000000000000010863247360000000000000000000000000000000000109366476800000000000000000000000000000000001120403456000000000000000000000000000000000011204034560000000000000000000010288735200000112040345600000000000000000000106137496500001120403456000000000000000000000000000000000011204034560000000000000000000000000000000000112040345600000000000000000000000000000000001120403456000000000000000000000000000000000011204034560000000000000000000000000000000000))
 (.node 1 (.leaf 11204034560000000000000000000000000000000000112040345600000000000000000000000000000000001120403456000000000000000000000000000000000011204034560000000000000000000000000000000000112040345600000000000000000000000000000000001120403456000000000000000000000000000000000011204034560000000000000000000000000000000000112040345600000000000000000000000000000000001120403456000000000000000000000000000000000011204034560000000000000000000000000000000000112040345600000000000000000000000000000000001120403456000000000000000000000000000000000011204034560000000000000000000000000000000000112040345600000000000000000000106520581000001120403456000000000000000000000000000000000011196170240000000000000000000010654989720000)
 (.leaf 11204034560000000000000000000000000000000000111673344000000000000000000000104090078500001119617024000000000010840442931081386292000011112284160000000000000000000000000000000000112040345600000000000000000000000000000000001120403456000000000000000000000000000000000011204034560000000000000000000000000000000000112040345600000000000000000000000000000000001120403456000000000000000000000000000000000011204034560000000000000000000000000000000000112040345600000000000000000000000000000000001120403456000000000000000000000000000000000011204034560000000000000000000010405472310000110913126400000000000000000000000000000000001119617024000000000000000000000000000000000011204034560000000000000000000010685539360000)))))))
 (.node 32 (.node 16 (.node 8 (.node 4 (.node 2 (.node 1 (.leaf 11204034560000000000000000000000000000000000112040345600000000000000000000000000000000001120403456000000000000000000000000000000000011204034560000000000000000000000000000000000111280128000000000000000000000108000837900001105199104000000000000000000001076759431000011204034560000000000000000000000000000000000112040345600000000000000000000103795209500001120403456000000000000000000001066978699000011204034560000000000000000000000000000000000112040345600000000000000000000000000000000001120403456000000000000000000000000000000000011204034560000000000000000000000000000000000112040345600000000000000000000000000000000001120403456000000000000000000001041470321000011204034560000000000000000000010571149430000)
 (.leaf 11204034560000000000000000000000000000000000112040345610315942360000000000107166248100001120403456000000000000000000001039160107000011204034560000000000000000000010368621780000112040345600000000000000000000108836317600001114112000000000000000000000001091178153000011204034560000000000103412075100000000000000112040345600000000000000000000000000000000001120403456000000000000000000000000000000000011204034560000000000000000000000000000000000112040345600000000000000000000000000000000001120403456000000000000000000000000000000000011204034560000000000000000000000000000000000111489843200000000000000000000000000000000001120403456000000000000000000001049791595000011204034560000000000000000000010570667890000))
 (.node 1 (.leaf 11204034560000000000000000000000000000000000112040345600000000000000000000106427235500001120403456000000000000000000000000000000000011148984320000000000000000000000000000000000112040345600000000000000000000000000000000001120403456000000000000000000000000000000000011204034560000000000000000000000000000000000112040345600000000000000000000000000000000001120403456000000000000000000000000000000000011204034560000000000000000000000000000000000112040345600000000000000000000000000000000001120403456000000000000000000000000000000000011204034560000000000000000000000000000000000112040345600000000000000000000000000000000001120403456000000000000000000000000000000000011204034560000000000000000000000000000000000)
 (.leaf 11204034560000000000000000000000000000000000112040345600000000000000000000000000000000001120403456000000000000000000000000000000000011204034560000000000000000000000000000000000112040345600000000000000000000000000000000001120403456000000000000000000000000000000000011204034560000000000000000000010673272850000112040345600000000000000000000104879521200001103626240000000000000000000001061957400000011204034560000000000000000000010489437750000112040345600000000000000000000105580871500001120403456000000000000000000000000000000000011204034561050542927000000000010529571700000112040345600000000000000000000106044491753871120403456000000000000000000001085809866000011204034560000000000000000000010674799295388)))
 (.node 2 (.node 1 (.leaf 11204034560000000000000000000010926395850000111935488000000000001096713922103189678300001120403456000000000000000000000000000000000011204034560000000000000000000010491045110000112040345600000000000000000000000000000000001120403456000000000000000000000000000000000011204034560000000000000000000000000000000000112040345600000000000000000000000000000000001119354880000000000000000000001032554761000011091312640000000000000000000010484627320000109943193600000000000000000000104037787300001120403456108532056100000000001070306407000011204034560000000000000000000010852687790000112040345610493834540000000000108504152653891120403456000000000000000000000000000000000011204034560000000000111239092010589908870000)
 (.leaf 11204034560000000000000000000010571618250000111961702400000000000000000000109055111900001117913088000000000000000000001044143382000011020533760000000000000000000010662332760000111280128000000000000000000000102524844400001116733440000000000000000000001070673303000011175198720000000000000000000010693025830000112040345600000000000000000000000000000000001120403456000000000000000000000000000000000011181752320000000000105207908300000000000000111044198400000000000000000000000000000000001118568448000000000000000000000000000000000011204034560000000000000000000010578266670000112040345600000000000000000000107325761500001120403456000000000011080307830000000000000011148984320000000000000000000010684283370000))
 (.node 1 (.leaf 11160780800000000000000000000010607554370000112040345600000000000000000000102664545000001100480512000000000000000000001036559700000011181752320000000000000000000010819111370000112040345600000000000000000000000000000000001120403456000000000000000000000000000000000011204034560000000000000000000000000000000000112040345600000000000000000000000000000000001120010240000000000010678605711053844796000011171266560000000000000000000000000000000000111607808000000000000000000000105696919800001116340224000000000000000000000000000000000011204034560000000000000000000010694403960000112040345610668879200000000000103287162100001120403456000000000000000000001096830528000011204034561083877446000000000010576835180000)
 (.leaf 11204034560000000000000000000010424145340000112040345600000000000000000000107806590100001120403456000000000000000000001075926870000011204034560000000000000000000010481275690000112040345600000000000000000000107440559600001120403456109608879510629540741077550084000011204034561104493403104584466910639920510000112040345600000000001106280186106757748300001120403456000000000000000000001091977822000011160780800000000000000000000010773395530000111935488000000000000000000000107260593800001077936128000000000000000000001065254926000011204034560000000000000000000000000000000000111896166400000000000000000000109088432900001119354880106884258300000000001068665447000011051991040000000000000000000010804223260000))))
 (.node 4 (.node 2 (.node 1 (.leaf 11179130880000000000000000000010773956410000111856844800000000000000000000108096532200001120403456000000000000000000001060252299000011204034560000000000000000000000000000000000112040345600000000000000000000000000000000001120403456000000000000000000000000000000000011204034560000000000000000000000000000000000112040345600000000000000000000101912667253901117126656000000000010679956281068248954000010863247360000000000000000000000000000000000110834483200000000000000000000106288667000001114898432000000000011010807171071107460000011204034560000000000000000000010433385060000112040345600000000000000000000105848871800001120403456000000000000000000001074670605000011204034560000000000000000000010647023450000)
 (.leaf 11204034560000000000000000000010678250250000112040345600000000000000000000109123958800001120403456000000000000000000001079680584539111204034560000000000000000000010594692970000112040345610404513980000000000107619463500001120403456000000000000000000001057829151000011204034560000000000000000000010809269070000112040345600000000000000000000106750509200001120403456000000000000000000001077416276000011204034560000000000000000000010658491540000112040345610348428421039704208108327965000001120403456000000000010771484381057757627000011204034560000000000000000000010937538460000112040345600000000000000000000106879813300001118568448000000000000000000001079467758000011204034560000000000000000000010917369340000))
 (.node 1 (.leaf 11171266560000000000000000000010692923530000111856844800000000000000000000104527781300001120403456000000000000000000000969307618000011204034560000000000000000000010683737840000111791308800000000000000000000102739589000001120403456000000000000000000000000000000000011204034560000000000000000000000000000000000112040345600000000000000000000000000000000001120403456000000000000000000000000000000000011204034560000000000000000000000000000000000112040345600000000000000000000000000000000001120403456000000000000000000000000000000000011204034560000000000000000000000000000000000112040345600000000000000000000000000000000001120403456000000000000000000000000000000000011204034560000000000000000000000000000000000)
 (.leaf 11200102400000000000000000000010438397210000111856844800000000000000000000105178455900001120403456000000000000000000001050646362000011179130880000000000000000000010728737640000112040345600000000000000000000106089451500001120403456106251882300000000001040780038000011204034560000000000000000000010599504410000112040345600000000001057900777000000000000001120403456102642980600000000001019303147000011204034560000000000102557108110792652950000112040345610387811931056095548107396890853921120403456000000000010576457631085358728000011204034560000000000000000000011009279210000112040345600000000001064417047109769987400001117913088000000000000000000001049876923000011189616640000000000000000000010739015960000)))
 (.node 2 (.node 1 (.leaf 11163402240000000000000000000010759876350000112040345600000000000000000000000000000000001120403456000000000000000000001056907348000011204034560000000000000000000000000000000000112040345600000000000000000000000000000000001120403456000000000000000000000000000000000011204034560000000000000000000000000000000000112040345600000000000000000000000000000000001120403456000000000000000000000000000000000011204034560000000000000000000000000000000000112040345600000000000000000000000000000000001120403456000000000000000000001067944574000011204034560000000000000000000000000000000000112040345600000000000000000000105241328300001120403456000000000000000000000000000000000010905190400000000000000000000000000000000000)
 (.leaf 11160780800000000000000000000010865058580000111122841600000000000000000000101964226200001118961664000000000000000000001069932138000011204034560000000000000000000010546393750000111817523200000000000000000000107167624100001110441984000000000000000000001060099626000011204034560000000000000000000000000000000000112040345600000000000000000000103334312700001120403456000000000000000000001052354132000011204034560000000000000000000000000000000000112040345600000000000000000000000000000000001120403456000000000000000000000000000000000011204034560000000000000000000000000000000000112040345600000000000000000000000000000000001120403456000000000000000000001051022119000011083448320000000000103589242510619926370000))
 (.node 1 (.leaf 11163402240000000000000000000010851403110000112040345600000000000000000000109088417100001120403456105642777110586842731097219104539311175198721081088055108291120210975050530000111791308800000000000000000000107601061953941120403456000000000000000000001092881808000011204034560000000000000000000010855518750000112001024000000000000000000000109856432200001118175232000000000000000000001040557227000011196170240000000000000000000010758507460000112040345600000000000000000000107041399000001120403456000000000000000000001026749487000011204034560000000000000000000010671241660000112040345600000000000000000000107242635400001120403456000000000000000000000000000000000011204034560000000000000000000000000000000000)
 (.leaf 11204034560000000000000000000010546379760000112040345600000000000000000000106055714000001120403456000000000000000000001080215723000011204034560000000000000000000010866368500000112040345600000000000000000000105829181700001120403456000000000000000000001066934033000011204034560000000000000000000000000000000000112040345600000000000000000000000000000000001120403456000000000000000000001082269224000011204034560000000000000000000000000000000000112040345600000000000000000000000000000000001120403456000000000000000000000000000000000011204034561056997038000000000010659081820000112040345610640562200000000000000000000000001120403456000000000000000000000000000000000011204034560000000000104835454110292319010000)))))
 (.node 8 (.node 4 (.node 2 (.node 1 (.leaf 11120148480000000000000000000010344435370000111856844800000000000000000000107870413300001120403456000000000000000000001055481161000011204034560000000000102492683610894970470000111607808000000000001054682907109242107200001120403456000000000010715347811078268157000011204034561075932824105755852110833425200000112040345600000000001116535508108443254700001118175232106080449311152656171084829460000010994319360000000000109734631800000000000000110519910400000000000000000000106531929100001120403456000000000000000000001085262799000011204034560000000000000000000011000767310000112040345600000000000000000000107515456900001120403456000000000000000000001090104096000011171266560000000000000000000010719163120000)
 (.leaf 11204034560000000000000000000010626536095395112040345600000000000000000000107396232000001120403456000000000000000000001065562268000011189616641033855805000000000010458720975396112040345600000000000000000000000000000000001120403456000000000000000000000000000000000011204034560000000000000000000000000000000000111280128000000000000000000000104416999400001120403456000000000000000000001055392007000011204034560000000000000000000010827178040000112040345600000000000000000000107749256400001120403456103754008200000000001059234600000011204034560000000000000000000010801056820000112040345600000000000000000000000000000000001120403456000000000000000000000000000000000011204034560000000000000000000000000000000000))
 (.node 1 (.leaf 11204034560000000000000000000000000000000000112040345600000000000000000000000000000000001120403456000000000010835917281076125911000011204034560000000000104314689310654350770000112040345600000000001074907002105146346100001120403456108567312210254905511087549797000011204034560000000000102973183110793480980000112040345600000000001117018797105688320600001120403456000000000011163556771087105829000011204034560000000000111575396510945996240000112040345600000000001117000984105963565500001120403456000000000011170527441045208788000011163402240000000000111125895600000000000000111201484800000000001109287712000000000000001120403456105041119311056888941071498143000011204034560000000000000000000010800651810000)
 (.leaf 11204034560000000000000000000010909800105397112040345600000000000000000000110141368953981120403456000000000000000000001094261262539911160780800000000000000000000010704755490000112040345600000000000000000000108112104354001120403456000000000000000000001078445801000011204034560000000000000000000000000000000000112040345600000000000000000000000000000000001120403456000000000000000000000000000000000011204034560000000000000000000000000000000000112040345600000000000000000000000000000000001115684864000000000010300271101020951337000011185684480000000000104337506310540681360000112040345600000000000000000000107820419100001093664768000000000000000000000000000000000011204034561082238093103720775810699781465401)))
 (.node 2 (.node 1 (.leaf 11004805120000000000109544535510509918130000112040345600000000000000000000104999732600001120403456000000000000000000001067044510000011204034560000000000000000000010288671625402112040345600000000000000000000000000000000001120403456000000000000000000000000000000000011204034560000000000000000000010035535320000112040345600000000000000000000106025119600001120403456000000000000000000000000000000000011204034560000000000000000000000000000000000112040345600000000000000000000000000000000001120403456000000000000000000000000000000000011204034560000000000000000000000000000000000112040345600000000001094834350103454474100001120403456000000000010494886810000000000000011204034560000000000000000000000000000000000)
 (.leaf 11204034560000000000000000000000000000000000112040345600000000000000000000000000000000001120403456000000000010744166881076625280000011204034561080852897109284299910945157900000110991769610758891061052974986106416834654031099431936000000000000000000001036634083000011156848640000000000108543176910913103830000112040345600000000001117047410000000000000001120403456000000000011170761150000000000000011204034560000000000111707611500000000000000112040345600000000001106206209103181402100001120403456000000000011068246590000000000000011204034560000000000110304239310910363150000111607808000000000000000000000000000000000001120403456000000000000000000001089157588000011204034560000000000000000000010985899345404))
 (.node 1 (.leaf 11189616640000000000000000000010880640450000111712665600000000000000000000108629124254051120403456000000000000000000001079688478540611160780800000000000000000000010612275240000111712665600000000000000000000109120436000001120403456000000000000000000001082233521000011204034560000000000000000000010563314320000112040345600000000000000000000000000000000001120403456000000000000000000000000000000000011204034560000000000000000000000000000000000111961702400000000000996070025107952790300001120403456000000000000000000001074181286000011204034560000000000000000000000000000000000112040345611098163001058199411108484470654071120403456000000000000000000001032541575000011204034560000000000107193995110681324180000)
 (.leaf 11204034561069238459103550319310829599505408112040345600000000001026805885108662370900001120403456000000000000000000001060160039000011204034560000000000000000000010652314570000112040345600000000000000000000104420670900001120403456000000000000000000001066491038000011204034560000000000000000000010723052410000112040345600000000000000000000104161345354091120403456000000000000000000000000000000541011204034560000000000000000000000000000000000112040345600000000000000000000105279885600001120403456106111701900000000000000000000000011204034560000000000000000000000000000000000112040345600000000000000000000000000000000001120403456000000000000000000000000000000000011204034560000000000106540606400000000000000))))
 (.node 4 (.node 2 (.node 1 (.leaf 11204034560000000000000000000000000000000000112040345600000000000000000000000000000000001120403456000000000000000000001078009103000011204034560000000000106059687500000000000000112040345600000000000000000000000000000000001120403456000000000000000000000000000000000011204034560000000000000000000000000000000000112040345600000000000000000000000000000000001120403456000000000000000000000000000000000011204034560000000000000000000000000000000000112040345610862833421061885365106988632300001120403456109057151010926506901083911865000011204034561081862366109907290410942031850000112040345600000000001038160704103457425000001119617024000000000010914097001051214714000011204034560000000000110789740500000000000000)
 (.leaf 11204034560000000000111701251910593671410000112040345600000000001117064856000000000000001120403456000000000011170432941051406955000011204034560000000000111686314900000000000000112040345600000000001110932403104870899800001120403456000000000010906641630000000000000011204034560000000000000000000010331168190000111896166400000000001091982328106901137700001120403456000000000010990498871089744585541111204034560000000000106551343810770040890000109051904000000000000000000000106284496100001120403456000000000000000000001085063982541211196170240000000000000000000010868163100000112040345600000000000000000000108704503800001120403456000000000000000000000000000000000011204034560000000000000000000000000000000000))
 (.node 1 (.leaf 11204034561103044941105076039410762420030000112040345600000000000000000000105209126200001120403456000000000000000000001083911889000011200102401070117971000000000010737513730000110755840000000000000000000000105256461900001120403456000000000000000000001077776873000011204034560000000000000000000010595839310000112040345600000000000000000000105489347500001120403456000000000000000000000000000000541311204034560000000000000000000010104499290000112040345600000000000000000000107186419800001120403456000000000010301881711021000511000011204034560000000000000000000000000000000000112040345610568830040000000000000000000000001120403456000000000000000000000000000000000011204034560000000000000000000000000000000000)
 (.leaf 11204034560000000000106723645810377164700000112040345600000000001075269390000000000000001120403456000000000010300002661066389425000011204034560000000000106169746100000000000000112040345610425932451081318834108570217700001120403456111469188910935544581096281156000011204034561113245298107830438810907918380000112040345600000000001107773463000000000000001120403456000000000010794557240000000000000011204034560000000000106655530400000000000000112040345600000000001081152320106781318500001120403456000000000010839843141049696473000011196170240000000000108264465410619052715414111856844800000000001102412041000000000000001120403456000000000011117682231079720194000011204034560000000000111235052310397286190000)))
 (.node 2 (.node 1 (.leaf 11204034560000000000110491556900000000000000112040345600000000001110830324109943661600001120403456000000000010943838811086404321000011204034560000000000000000000010649065770000112040345600000000000000000000107093380200001117913088000000000000000000001077395284000011167334400000000000000000000010917469360000111896166400000000000000000000107772007000001120403456105364956400000000001081412711000011204034560000000000000000000010834923090000111489843200000000000000000000109856476900001120403456000000000000000000000000000000000011204034560000000000000000000000000000000000112040345600000000000000000000000000000000001120403456000000000000000000000000000000000011204034560000000000000000000000000000000000)
 (.leaf 11204034560000000000000000000000000000000000112040345600000000000000000000000000000000001117913088000000000000000000001077524401000011204034560000000000000000000010761061535415112040345611032276091028899681105848180400001120403456000000000000000000001067015595000011204034560000000000000000000000000000005416112040345600000000000000000000105843058354171120403456000000000000000000001075125566000011204034561077858814102583951700000000005418110755840000000000001077387513103202996000001109917696000000000000000000001038149985000011204034560000000000000000000010315503290000112040345600000000001059115447104870592100001120403456000000000000000000001057115643000011204034560000000000108079832110524253470000))
 (.node 1 (.leaf 11204034560000000000109996419310827601720000112040345610743401541027906470107755829854191120403456000000000000000000001063789305000011204034560000000000000000000010596423830000112040345600000000000000000000105710299500001120403456000000000000000000000000000000542011204034560000000000107627686110510457950000112040345600000000000000000000000000000000001120403456000000000000000000000000000000000011204034560000000000106953745410359448390000112040345600000000000000000000000000000000001120403456106396228400000000000961084630000011204034560000000000102506105400000000000000112040345600000000001070413224109343001600001120403456111641727010699468181083134514000011204034561089713098109364149010923518630000)
 (.leaf 11204034560000000000104061017810389225230000112040345600000000001078254895104986363400001120403456000000000000000000000000000000000011204034561098802408109151634110518831910000112040345600000000001092927724102008112200001117913088000000000011124130191074111909000011204034560000000000109102917210641487580000112040345600000000000000000000000000000000001120403456000000000011119035681084950929000011204034560000000000109117177910807588790000112040345600000000000000000000107527692800001120403456000000000000000000001081258941000011204034560000000000000000000010835169150000111280128000000000000000000000107585231700001107558400000000000000000000001068331215000010994319360000000000000000000010738565370000))))))
 (.node 16 (.node 8 (.node 4 (.node 2 (.node 1 (.leaf 11171266560000000000000000000010839030185421108632473600000000000000000000106490491900001120403456000000000000000000001076879149000011091312640000000000000000000010676994610000112040345600000000000000000000106665534200001120403456000000000000000000000000000000000011204034560000000000000000000000000000000000112040345600000000000000000000000000000000001120403456000000000000000000000000000000000011204034560000000000000000000000000000000000112040345600000000001046301010108637609354221120403456110239025310150618331079181450000011204034560000000000000000000010816245985423112040345600000000000000000000104506989554241120403456000000000000000000001068780154000011167334400000000000107881651210275588680000)
 (.leaf 11204034560000000000000000000010709522070000112040345600000000000000000000104616132900001120403456000000000010578236011032839926000011204034560000000000109415634010752088070000112040345610561235330000000000103383476000001120403456000000000000000000001062366687000011204034560000000000000000000010579353210000112040345610891518880000000000000000000000001120403456000000000000000000001054608788000011204034561057639237000000000010500568100000112040345600000000000000000000000000000000001120403456000000000000000000000000000000000011204034560000000000107712998300000000000000112040345600000000000000000000000000000000001120403456111389611010911414751089742512000011204034561108672473109393519610913345290000))
 (.node 1 (.leaf 11204034561110700574108452579910716316580000112040345611173072511079602525103241287200001120403456000000000010679377460000000000000011204034560000000000109412131800000000000000112040345600000000001095265839105585551200001120403456000000000000000000001046178724000011204034560000000000000000000010669791360000111896166400000000001030161328106844936254251120403456000000000011095107960995582395000011204034560000000000110263627910680638630000112040345600000000001112496197104191216600001120403456000000000011159688051060332027000011204034560000000000109152567310482510270000112040345600000000000000000000109179707754261120403456000000000000000000001086576827542711204034560000000000000000000010908714670000)
 (.leaf 11204034560000000000000000000011003989050000112040345600000000000000000000109254918300001120403456000000000000000000001090794856000011204034560000000000000000000010931294730000112040345600000000000000000000108329594100001120403456000000000000000000001065546901000011193548800000000000000000000010846190480000112040345600000000000000000000109209388000001120403456000000000000000000001086687268000011204034560000000000000000000010972407385428112040345600000000000000000000000000000000001120403456000000000000000000000000000000000011204034560000000000000000000000000000000000112040345600000000000000000000000000000000001120403456000000000000000000000000000000000011193548800000000000000000000010738871770000)))
 (.node 2 (.node 1 (.leaf 11204034560000000000000000000010551323830000112040345600000000000000000000000000000000001120403456110675510910473814621093048397000011204034561101662995102736959900000000000000112040345611089326151054471514108720259700001109917696000000000010905841571028446696000011204034560000000000102498052310402758720000112040345600000000000000000000107046810300001120403456000000000000000000001053241844000011204034560000000000106208837010675898090000112040345600000000001048562578106560773700001120403456000000000010763951411072287275000011204034560000000000000000000010625283210000112040345600000000000000000000000000000000001120403456000000000000000000001057863838542911204034560000000000000000000010760718375430)
 (.leaf 11204034560000000000104179129410481241830000112040345600000000000000000000000000000000001120403456000000000000000000000000000000000011204034560000000000000000000000000000000000112040345600000000000000000000000000000000001120403456000000000000000000000000000000000011204034560000000000000000000010668724920000112040345600000000001059477835000000000000001120403456000000000000000000000000000000000011204034560000000000106285508900000000000000112040345611188038741033489927000000000000001120403456000000000010581390131034435275000011204034560000000000106627512410403813850000112040345600000000001052226722000000000000001120403456000000000011159755291035620519000011204034561109626267106864910000000000000000))
 (.node 1 (.leaf 11204034560000000000104179800500000000000000110519910400000000000000000000104575462200001120403456000000000011077496601045126324000011204034560000000000111708017800000000000000112040345600000000001117080178000000000000001120403456000000000010813087680000000000000011204034560000000000104868001900000000000000112040345600000000001042381852102722589300001120403456000000000010805043001073961103000011204034560000000000000000000010517377405431112040345600000000000000000000108005793554321120403456000000000000000000001085103129000011204034560000000000000000000010875863330000112040345600000000000000000000107441736500001120403456000000000000000000001083909994000011204034560000000000000000000010846210815433)
 (.leaf 11179130880000000000000000000010870913720000112001024000000000000000000000108743663400001120403456000000000000000000000000000000000011204034560000000000000000000000000000000000112040345600000000000000000000000000000000001120403456000000000000000000001087668528543411204034560000000000000000000010412234220000112040345600000000000000000000109319231854351119617024110071434111119861691068482114000011204034560000000000105269984010427624810000112040345600000000001024953680000000000000001120403456104897623710790052560978229641000011204034560000000000103158403610588950300000112040345600000000000000000000106273780200001120403456000000000010852585441078658967000011204034560000000000000000000000000000005436))))
 (.node 4 (.node 2 (.node 1 (.leaf 11204034560000000000000000000000000000005437112040345600000000000000000000000000000000001120403456000000000000000000000000000000000011204034560000000000106906265800000000000000112040345600000000000000000000000000000000001120403456000000000000000000000000000000000011204034560000000000000000000000000000000000112040345600000000000000000000000000000000001120403456000000000000000000001076840264000011204034560000000000104189866810572544490000112040345600000000001075053802000000000000001120403456000000000000000000001041115798000011204034560000000000000000000000000000000000112040345600000000001060512989103815282700001120403456000000000010587530591045972148000011204034561072354105109261807900000000000000)
 (.leaf 11204034561098801274105911880310793676730000112040345610710818221096824966107620605400001120403456101523900100000000000000000000000011204034560000000000110380738200000000000000112040345600000000001076899296000000000000001120403456000000000010750508661042863011000011204034560000000000107777255000000000000000112040345610480088631078083768105538153800001120403456000000000010836919711066578912000011204034560000000000106313694610600514260000111896166400000000001094146798106148837600001120403456000000000011083854911083498708000011204034560000000000111306337210677754540000112040345600000000001109632641000000000000001120403456000000000011040256431051963854000011204034560000000000109272157400000000000000))
 (.node 1 (.leaf 11204034561078871076110732810610699109320000112040345600000000001111061666108125007500001120403456000000000011128083841076975831000011204034560000000000109884232210749389630000112040345600000000000000000000108414404254381120403456000000000000000000001091272394000011204034560000000000000000000010724688660000111961702400000000000000000000109552938100001120403456000000000000000000001079783627000011204034560000000000000000000010870062215439112040345600000000000000000000110047963700001110441984000000000000000000001075998426000011204034560000000000000000000010776556900000112040345600000000000000000000108500938754401114898432000000000000000000001076232606000011185684480000000000000000000010667098530000)
 (.leaf 11204034560000000000000000000000000000000000112040345600000000000000000000000000000000001120403456000000000000000000001055798250000011204034560000000000000000000000000000000000112040345600000000000000000000103959142000001120403456000000000000000000001043767836000011204034560000000000000000000010826869805441112040345600000000000000000000108105890454421120403456000000000000000000001085794616000011204034560000000000000000000010955434590000111817523210667163901101758831105682699800001120403456109116930711001099980000000000000011204034561084714377111486089310527242990000112040345610356553960000000000104200703900001120403456108106809411000068181090112676000011204034560000000000110203130310365791710000)))
 (.node 2 (.node 1 (.leaf 11204034560000000000109735397310487013320000112040345600000000001100574884106347171700001120403456000000000011135328451073250152000011204034560000000000000000000010508001000000112040345600000000000000000000103496633500001120403456000000000010603955491043270856000011204034560000000000103471130910551912500000112040345600000000000000000000000000000000001120403456103560358810925243370000000000000011204034560000000000109711405910504251430000112040345600000000000000000000107174877300001120403456000000000010667784400000000000000011204034560000000000000000000010357773590000112040345600000000001077481465000000000000001120403456000000000010532467770000000000000011204034561047885785103786542510462512340000)
 (.leaf 11204034560000000000000000000010395489360000112040345600000000001051545567000000000000001120403456103538884010835923570000000000000011204034561103987877105397826400000000000000112040345600000000001032791995000000000000001120403456000000000010647576251055902924000011204034560000000000000000000010767546150000112040345600000000000000000000107557213400001119617024000000000010850863681051249204000011204034560000000000111628073000000000000000112040345610580615691115806092107688783500001120403456000000000011078893040000000000000011204034561078856941110309251510324580000000112040345600000000001097359426000000000000001120403456000000000000000000000000000000000011204034560000000000110028332710744498610000))
 (.node 1 (.leaf 11204034560000000000000000000010975718070000112040345600000000000000000000108597441354431120403456000000000000000000001086063653000011204034561074029104000000000010766826310000112040345600000000000000000000107884831354441120403456000000000000000000001071983107000011204034560000000000000000000010810336630000112040345600000000000000000000109053099500001120403456000000000000000000001045074741000011204034560000000000000000000000000000000000112040345600000000000000000000000000000000001120403456000000000000000000000000000000000011204034560000000000000000000000000000000000111607808000000000001038308344106540494300001117126656000000000010532098671060402131000011204034560000000000000000000010675882870000)
 (.leaf 11204034560000000000000000000010791888435445112040345600000000000000000000107805855254461120403456000000000000000000001066045092000011204034560000000000000000000010910882175447112040345600000000001097410911109100021654481120403456108896433510970023851073088439000011204034560906377149110801633910426847560000112040345600000000001071593501106814037700001120403456000000000000000000000000000000000011204034561045723940109104783710814717730000112040345600000000001104960448105879080400001120403456106773467510995314980000000000000011204034561086045978111763834810742371940000112040345600000000001110070159107022185100001120403456103562076811082814721062380101000011204034561116152944108673137410343781880000)))))
 (.node 8 (.node 4 (.node 2 (.node 1 (.leaf 11204034560000000000000000000010753191850000112040345600000000000000000000000000000000001120403456000000000000000000000000000000000011204034560000000000000000000010692271040000112040345600000000000000000000104021713300001120403456000000000010516462311053462551000011204034560000000000000000000000000000000000112040345600000000001051733472000000000000001120403456107760650610251415851068932062000011204034560000000000000000000010731839290000112040345600000000001064130157000000000000001120403456000000000010822896060000000000000011204034560000000000000000000010532947370000112040345600000000001049220245000000000000001120403456000000000010520589500000000000000011204034561073125857000000000000000000000000)
 (.leaf 11204034560000000000106217896700000000000000112040345600000000001086807291000000000000001120403456000000000010777700340000000000000011204034560000000000105609554810507770480000112040345610654972481065494145106066857600001093664768000000000000000000000000000000000011179130880000000000000000000000000000000000112040345600000000001112617045105944459000001120403456000000000011170231621038080410000011204034560000000000000000000000000000000000112040345610615249411115767977105861060600001120403456000000000011070330631068196174000011204034560000000000108840448210296124080000112040345610696482341099236272000000000000001120403456000000000000000000000000000000000011204034560000000000000000000000000000000000))
 (.node 1 (.leaf 11204034560000000000000000000010592853900000112040345600000000000000000000000000000000001120403456000000000000000000001042088246000011204034561078808870109751797010616410520000112040345600000000001107699512106969234054491120403456000000000000000000001071336861000011171266560000000000000000000010822382610000112040345600000000000000000000106625037000001120403456000000000010250073671064346932000011204034560000000000000000000010749445320000112040345600000000001025114741108152939400001120403456000000000010614575461076759524000011204034560000000000000000000010922449555450112040345600000000000000000000107472779400001120403456000000000000000000001077780729000011204034560000000000000000000010778587435451)
 (.leaf 11204034560000000000000000000010739540740000112040345610359843641107738231105290849300001120403456000000000010669470520000000000000011204034560000000000000000000000000000000000112040345600000000001038120439000000000000001120403456000000000010939451571072597728000011204034560000000000108487476510588208600000112040345609907528551116536570106708471500001120403456110447054711156716261071187042000011204034561112950876110755952710599760740000112040345611199385120000000000000000000000001120403456110773061610911677941059252938000011204034560000000000000000000000000000000000112040345600000000000000000000104481769600001120403456000000000000000000000000000000000011204034560000000000105416952410553478970000)))
 (.node 2 (.node 1 (.leaf 11204034560000000000102506105400000000000000112040345600000000000000000000000000000000001120403456000000000000000000001057278913000011204034560000000000106145754600000000000000112040345600000000001104296909107532386400001120403456000000000011042335750000000000000011204034561034098068102522211500000000000000112040345600000000001089439007000000000000001120403456000000000011038956720000000000000011204034561084333427109544629910540108070000112001024010661560231101799516106541258700001118175232105697088311095111631059774167000011204034560000000000000000000000000000000000112040345600000000000000000000000000000000001120403456000000000000000000001035860888000011204034560000000000000000000000000000000000)
 (.leaf 11204034560000000000110152599510664103675452112040345600000000000000000000109368179800001120403456000000000000000000001090884760545311204034560000000000000000000010840722110000112040345600000000000000000000108810719854541120403456000000000000000000001091566515000011204034560000000000000000000010917568830000112040345600000000000000000000000000000000001120403456000000000000000000000000000000000011204034561077195145105434065110654334040000112040345600000000000000000000105298628900001120403456000000000000000000001083060835545511091312640000000000109284415210413559770000112040345600000000000000000000104500547800001120403456000000000000000000000000000000000011204034560000000000000000000000000000000000))
 (.node 1 (.leaf 11204034560000000000105720787800000000000000112040345600000000001025034211000000000000001120403456000000000011153760581073179895000011204034561093857556111780707710664131240000112040345610857393471116541537107159601500001120403456109466524611118107431060440159000011204034561112939693104358310110463011200000112040345600000000001073768668000000000000001120403456000000000000000000000000000000000011204034560000000000000000000000000000000000112040345600000000000000000000108385022900001120403456000000000000000000000000000000000011204034560000000000000000000000000000000000112040345600000000000000000000000000000000001120403456000000000000000000001050902655000011204034560000000000106233835010308479610000)
 (.leaf 11204034560000000000109855752800000000000000112040345600000000001102768348104611817700001120403456107413151310944840201050494525000011156848640000000000109915395910769407930000111961702400000000001105621942104875140200001120403456000000000011040753450000000000000011204034560000000000109780098100000000000000112040345600000000001107353403000000000000001120403456000000000009868224230000000000000011204034560000000000000000000000000000000000112040345600000000000000000000105268790300001120403456000000000000000000001042855842000011204034560000000000000000000010399318770000112040345600000000001106996101109123391700001120403456109393418010798558611096910780000011204034561093258757108271763510918314695456))))
 (.node 4 (.node 2 (.node 1 (.leaf 11204034560000000000000000000010953534770000112040345600000000000000000000109724572454571120403456000000000000000000001092084821000011196170240000000000000000000010628351300000112040345600000000000000000000108448544300001120403456000000000000000000001084691279000011148984320000000000000000000010745363020000112040345600000000000000000000000000000000001120403456000000000000000000000000000000000011204034561049838351105200190810791906130000112040345610874600921049857779107796949454581120403456000000000000000000001068524034545911204034560000000000000000000010853720035460112040345600000000000000000000108259673854611120403456000000000000000000001075191274000011204034560000000000000000000009994236770000)
 (.leaf 11204034560000000000000000000010956556610000112040345600000000000000000000108271552254621120403456000000000000000000000000000000000011204034561059379453000000000000000000000000112040345600000000000000000000000000000000001120403456000000000000000000001016806752000011204034560000000000102503421110498145460000112040345600000000001067392487000000000000001120403456000000000010571659351041531471000011204034561101020139109911122910596244050000112040345611186718791047824381106207930000001120403456111764876710590131060000000000000011204034561119719212104584466900000000000000112040345611195342151031664566104234206200001120403456000000000000000000000000000000000011204034560000000000000000000000000000000000))
 (.node 1 (.leaf 11204034560000000000000000000010441775370000112040345600000000000000000000104705766300001120403456000000000000000000001063169270000011204034561085702685109630959110886982170000112040345600000000001013061989000000000000001120403456000000000010668581320000000000000011204034560000000000000000000000000000000000112040345600000000000000000000000000000000001120403456000000000010583906711044278606000011204034560000000000110074407210486368610000112040345609650630451057390749000000000000001120403456000000000010918526191038691811000011204034560000000000110849391300000000000000112040345600000000000000000000105843747100001120403456105623369210680174381046746115546311171266560000000000110440611810573775700000)
 (.leaf 11204034560000000000111268782400000000000000112040345600000000001112323549107014084400001120403456000000000011166782851071453234000011204034560000000000107467254000000000000000112040345600000000001093473822000000000000001120403456105805098300000000001050142656000011204034560000000000000000000010416507470000112040345610773387370000000000107549789100001120403456000000000011076113531077087075546411204034560000000000110791011910698694620000112040345600000000001106937224107790581254651120403456108263206411034177831099616179000011204034561113200147107616655110964642285466112040345600000000001033436240108902036054671120403456000000000000000000001075801085000011175198721077643001109950025110754692470000)))
 (.node 2 (.node 1 (.leaf 11163402240000000000000000000010663269870000111896166400000000000000000000106946659900001120403456000000000000000000001080085047000011204034560000000000000000000010842383690000112040345600000000000000000000108588127800001120403456106079162511105147031076820461546811204034560000000000103710038410931832475469112040345610760751530000000000106889000500001120403456000000000000000000001063950998000011204034561063975437000000000000000000000000112040345611083968141097648099109433708700001120403456111308884111025895651079885902000011204034561092297930111544602510696952210000112040345600000000001115412313108594134200001120403456104915115711168532791080598640000011204034560000000000111030564310690244880000)
 (.leaf 11204034561060452893000000000010396994500000112040345600000000000000000000000000000000001120403456000000000000000000001051253869000011204034560000000000104969000710555010830000112040345610674346061062883610000000000000001120403456000000000000000000000000000000000011204034560000000000000000000000000000000000112040345600000000001091053814000000000000001120403456000000000011152761550000000000000011204034561068268685110453331110208203300000112040345600000000001103394295103537067300001120403456000000000010896369781065473357000011204034560000000000000000000010389055530000112040345600000000001015330269107675043500001120403456000000000011009535250000000000000011204034560000000000111486018510561654380000))
 (.node 1 (.leaf 11204034560000000000000000000000000000000000112040345600000000000000000000104902015300001120403456000000000000000000001039490314000011204034561071109437103334228810517500250000112040345600000000001099725852109511845800001120403456000000000000000000001085632452547011204034560000000000000000000010841152735471112040345600000000000000000000109390571500001120403456000000000000000000000000000000000011204034560000000000000000000000000000000000112040345600000000000000000000000000000000001120403456000000000000000000001076087015000011204034560000000000000000000010876565230000112040345600000000000000000000108706580454721120403456000000000000000000001036173209000011204034560000000000000000000010756680245473)
 (.leaf 11204034560000000000000000000010871695620000112040345600000000001071465995106781155754741120403456000000000010950877901074490202547511204034560000000000109796644610495043990000112040345600000000000000000000103755759600001120403456000000000000000000001057686411000011204034560000000000000000000010680009330000112040345600000000000000000000104461307900001120403456000000000000000000000000000000000011204034560000000000000000000010589769890000112040345600000000001062596719104949561400001120403456000000000010884516681047234127000011204034561115328474106632461700000000000000112040345610824307061078371916000000000000001120403456107961871911040400080000000000000011204034560000000000110005940400000000000000))))))))
 (.node 64 (.node 32 (.node 16 (.node 8 (.node 4 (.node 2 (.node 1 (.leaf 11204034560000000000000000000000000000000000112040345610249692490000000000000000000000001120403456107778288511123835801061757114000011204034560000000000110382609910723677360000112040345600000000000000000000103385341400001120403456107435958200000000001056671173000011204034561063184459000000000010379067340000112040345600000000001033489927106368799100001120403456000000000010335973021040617614000011204034560000000000111412550010573516380000112040345610728063431104977068000000000000001120403456110870519310884711710000000000000011204034561088969203109874627200000000000000112040345600000000001095659160102843097000001120403456000000000011159975361028260266000011204034561056867300109208078910654019020000)
 (.leaf 11204034561074133492000000000010655560410000112040345600000000000000000000104900249700001120403456107461470111102598201068298492000011204034561070706834110833125310631331490000112040345600000000000000000000104434758200001120403456000000000000000000001076633351000011204034560000000000000000000010334874420000112040345600000000001063527855000000000000001120403456000000000011116226021083413381000011204034560000000000110595958410960673975476112040345600000000001070416580110081513200001120403456000000000010702437741095368579000011204034560000000000000000000010860618905477112040345600000000001078614766109973145400001114898432000000000000000000001090718863547811204034560000000000104560307710582896990000))
 (.node 1 (.leaf 11204034561108569465104476421710627647440000112040345600000000000000000000102896258900001120403456000000000000000000001081253785547911204034560000000000000000000010807944765480112040345600000000000000000000109070753600001120403456000000000000000000001061692422000011204034560000000000000000000010684041460000112040345610679787831098291819107386168900001120403456106685989400000000000000000000000011204034560000000000000000000000000000000000112040345600000000001108948156106390499700001120403456000000000010990638861034998596000011204034561118990785105319309010762717830000112040345610680236621100221409103491941800001120403456000000000000000000000000000000000011204034560000000000000000000000000000000000)
 (.leaf 11204034560000000000000000000010652135820000112040345600000000001101898501105136497400001120403456106015677509988751751074184412000011204034561081990586102498052310550712760000112040345600000000000000000000105692768800001120403456000000000010989453440000000000000011204034560000000000109207932100000000000000112040345600000000001076062952104859505400001120403456000000000010571021811046465295000011204034561085009998111578278810609202800000112040345600000000001068861332104024546700001120403456000000000010958841841059829586000011175198721080893922111231322010927323260000112040345610519185581112471450109074816200001120403456000000000000000000001066644677000011204034561017244750000000000010503069180000)))
 (.node 2 (.node 1 (.leaf 11204034560000000000000000000010718739430000112040345600000000000000000000104513342900001120403456000000000011124301371066013737000011204034560000000000109055720810911247100000112040345610502946241083260797109028322854811120403456000000000000000000001095865784548211204034560000000000000000000010944850655483111673344000000000000000000000103043750100001111228416000000000000000000001053549322000011204034560000000000000000000000000000000000112040345600000000000000000000000000000000001119617024000000000010590214951053838351000011204034560000000000000000000010613440950000112040345610949148431025329490106388648600001120403456000000000000000000001057127550548411204034560000000000000000000010779309695485)
 (.leaf 11204034560000000000000000000010672411525486112040345600000000000000000000106681828600001120403456000000000000000000001042400806000011204034560000000000000000000010472047350000112040345610571723940000000000105573521300001120403456110707903410636083861058372972548711204034561039616832105683710109991321560000112040345610492506121111501177107994862700001120403456110467080211071994201092529352000011204034561108960491110088458110887642300000112040345610911295181111809982107108116100001120403456000000000011080409551065927580000011204034560000000000000000000000000000000000112040345600000000001071815800000000000000001120403456000000000000000000000000000000000011204034560000000000000000000000000000000000))
 (.node 1 (.leaf 11204034560999669744106097604000000000000000112040345600000000000000000000000000000000001120403456000000000000000000001038288141000011204034560000000000000000000010550581670000112040345600000000000000000000104900100500001120403456000000000000000000001071782915000011204034560000000000106102301700000000000000112040345600000000001068497266102782391800001120403456109747018210797577141062027194548811204034560000000000111537755300000000000000112040345600000000000000000000106106163200001120403456000000000011090436030000000000000011204034560000000000108617332210451671440000112040345610265216111116149881109110277454891120403456000000000011138964131053190080000011204034560000000000000000000010713674600000)
 (.leaf 11204034560000000000107380222210677102840000112040345600000000000000000000107061874054901120403456000000000000000000001073845991000011204034560000000000000000000000000000000000112040345600000000000000000000104976459100001120403456000000000011124487230979438595000011204034561059027987111635033010333049875491112040345600000000001066287707109445765354921120403456000000000000000000001090956464549311204034560000000000000000000010967709130000112040345600000000000000000000109377353554941120403456000000000000000000001091152028000011179130880000000000110884529110967546340000112040345600000000000000000000108948352300001120403456000000000000000000001052454630000011204034560000000000000000000000000000000000))))
 (.node 4 (.node 2 (.node 1 (.leaf 11204034560000000000000000000000000000000000112040345610334603991055897577108955125800001120403456103451092210251147411083613766000011204034561107925940000000000010765244045495111961702400000000000000000000108346767400001120403456000000000000000000001067988677549611204034560000000000000000000010884451775497112040345600000000000000000000106256168354981120403456000000000000000000001091252069549911204034560000000000107667070600000000000000112040345600000000000000000000000000000000001120403456000000000011026465030000000000000011204034561112004316109430649710717836955500112040345611153038071073746018107862100200001120403456110762436310967599551084857036000011204034560000000000108614773610713562540000)
 (.leaf 11204034560000000000000000000010772429880000112040345600000000000000000000000000000000001120403456000000000000000000000000000000000011204034560000000000109874595800000000000000112040345600000000000000000000000000000000001120403456000000000000000000000000000000000011204034560000000000000000000010547012060000112040345600000000000000000000102885736900001120403456000000000000000000001053655568000011204034560000000000000000000010270262260000112040345610503292530000000000000000000000001120403456000000000010632325761059907467000011204034560000000000099887517500000000000000112040345610950581511096509660106962217400001120403456107436653611162761560000000000000011204034561060207426111737811800000000000000))
 (.node 1 (.leaf 11204034560000000000110159577710339034680000110677196800000000001037301711102765538600001103626240000000000000000000001001971647000011204034560000000000106260678600000000000000112040345600000000001066020949000000000000001120403456000000000011137095831088592812550111204034560000000000111519774810416801530000112040345610285375621115863568105052006900001120403456106909131411063826321044409626000011204034560000000000104307978410741229740000112040345600000000000000000000106530045600001120403456000000000000000000000000000000550211204034560000000000000000000000000000000000112040345600000000000000000000106749011655031120403456000000000000000000001033082752000011204034560000000000000000000010601077310000)
 (.leaf 11204034560000000000000000000010875294420000112040345600000000000000000000109615058255041120403456000000000000000000001086944076000011204034560000000000000000000010924896725505112040345600000000000000000000103298137400001120403456000000000010572045221069111065000011204034560000000000000000000010538099990000112040345600000000000000000000108910408155061120403456000000000000000000001059872826550711204034560000000000000000000010815121995508112040345600000000000000000000102658528300001120403456105864457800000000000000000000000011204034560000000000000000000010285773360000112040345600000000000000000000105724202500001120403456104136609210945318351040763388000011204034560000000000000000000010224996440000)))
 (.node 2 (.node 1 (.leaf 11204034560000000000000000000000000000000000112040345600000000000000000000102824344200001120403456000000000000000000001020748752000011204034561092461797104169063110658076520000112040345610749597281113718155108365796000001120403456000000000000000000000000000000000011204034560000000000000000000010488337210000112040345600000000000000000000000000000000001120403456000000000010730942230000000000000011204034560000000000110159541000000000000000112040345610313255321098625371000000000000001120403456000000000000000000000000000000000011204034560000000000000000000000000000000000112040345600000000001060890477000000000000001120403456000000000000000000000000000000000011204034560000000000000000000000000000000000)
 (.leaf 11204034560000000000102506105400000000000000112040345600000000001038509670105204106000001120403456000000000010443615631065701305000011204034560000000000111098538210416653620000112040345600000000001100914885000000000000001120403456000000000011079838330000000000000011204034560000000000106930676700000000000000112040345610631873111055582165000000000000001120403456103130137310972555121041209276000011204034560000000000110753223800000000000000112040345600000000001086094678107546079600001118175232000000000010853942301078282536550911204034560000000000000000000010812336480000112040345600000000000000000000106580178355101120403456000000000000000000001051807983000011204034560000000000111339414510608274095511))
 (.node 1 (.leaf 11204034560000000000000000000010933184505512112040345600000000000000000000108895290100001120403456000000000000000000001101389167000011204034560000000000000000000010921235195513112040345600000000000000000000108471780555141120403456000000000000000000001075979493000011204034560000000000102508789810741064760000112040345600000000000000000000107277180600001120403456000000000000000000001066167453000011204034561118846756106371408210838231240000111568486400000000000000000000106250186555151120403456109046434410819765011045266899551611204034560000000000000000000010628020140000112040345600000000001086754442104991427500001120403456108830971110984266661098359077000011204034561094678218110508748310540072570000)
 (.leaf 11204034561049913681109783726200000000000000112040345610657853800000000000000000000000001120403456000000000000000000000000000000000011204034560000000000000000000000000000000000112040345600000000000000000000000000000000001120403456000000000000000000000000000000000011204034560000000000000000000000000000000000112040345600000000000000000000000000000000001120403456000000000000000000000000000000000011204034561033390338106113206810359991960000112040345600000000001060115369102912666500001120403456000000000010943190790000000000000011204034560000000000109138138900000000000000112040345600000000001113979381000000000000001118961664000000000010655427991049809951000011204034560000000000108841412910535923980000)))))
 (.node 8 (.node 4 (.node 2 (.node 1 (.leaf 11104419840000000000110627452410772807850000112040345600000000001106760172000000000000001120403456000000000000000000001078133705551711204034560000000000000000000000000000000000112040345600000000000000000000106143582155181120403456000000000000000000001057810963000011204034560000000000000000000010259854510000112040345600000000001113592037107024135000001120403456000000000011168259381076287576000011204034561019652080111182282810658330185519112040345600000000001116088146109188824500001120403456000000000000000000001096586114552011204034560000000000103601322110931479745521112040345600000000000000000000110023570755221120403456000000000000000000001093829887552311204034560000000000000000000010908158040000)
 (.leaf 11204034560000000000105055571110643570760000112040345600000000000000000000106196829100001120403456000000000000000000001050106832000011204034560000000000000000000010480963045524112040345600000000000000000000000000000000001120403456000000000000000000000000000000000011204034560000000000000000000010409371080000112040345600000000001090954618104127393500001120403456000000000010402746341033073024000011204034561100027465110904184710832321790000112040345600000000000000000000104643215700001120403456000000000010966365371030565731000011204034561093013241107088802010528964630000112040345610644730831109378335107521738000001120403456000000000010903948890000000000000011204034560000000000000000000000000000000000))
 (.node 1 (.leaf 11204034560000000000000000000000000000000000112040345600000000000000000000000000000000001120403456000000000000000000000000000000000011204034560000000000000000000000000000000000112040345610684657921070633006105407228400001120403456108019729811008791811046035019000011204034560000000000110648738410755784080000112040345600000000001081486187101899190700001120403456106686628611099979120000000000000011204034561055614814109981267410678720135525112040345600000000000000000000107777472955261120403456000000000000000000001061800896000011204034560000000000111389533810575868235527112040345600000000001117057686104682306200001120403456000000000000000000001091882150000011204034561008094859105500502910966113775528)
 (.leaf 11075584001095614071108739302510839887450000112040345600000000000000000000108232145955291120403456000000000000000000001095923559000011204034560000000000000000000010862301950000112040345610747353581104053692105133437900001120403456000000000011008409601040559288000011204034560000000000000000000000000000000000112040345600000000000000000000000000000000001120403456000000000010752211550000000000000011204034560000000000105724814310538225650000112040345611023770871054401049107726297000001120403456110999884010627879800000000000000011204034561067856989109335826910672025010000112040345600000000001027852783104212946200001120403456000000000010677271921053161480000011204034561007870447000000000000000000000000)))
 (.node 2 (.node 1 (.leaf 11204034560000000000000000000000000000000000112040345600000000000000000000000000000000001120403456000000000000000000000000000000000011204034561075148132000000000000000000000000112040345600000000000000000000000000000000001120403456105469696610830538080000000000000011171266560000000000109200340410242535070000112040345611079808831078579534107692180000001115684864000000000011033880561065672680000011204034560000000000110739435010759806300000112040345600000000000000000000105629936500001120403456106566278100000000001060477480000011204034560000000000111667867810792725160000112040345600000000000000000000109397000700001120403456000000000010731370051090099759553011204034561113370883109422963610951771115531)
 (.leaf 11204034561116929579108938154510911679040000111817523200000000000000000000108773943800001120403456000000000000000000001090995722553211204034560000000000000000000010926883170000110048051200000000000000000000104287841300001118961664000000000010283091231085955852000011204034560000000000000000000010857448325533112040345600000000000000000000107406214455341120403456000000000011020234921028456137000011204034560000000000110723806010573401360000112040345600000000000000000000106513208100001120403456000000000000000000000000000000000011204034560000000000000000000000000000000000112040345600000000000000000000000000000000001120403456000000000000000000000000000000000011204034560000000000000000000000000000005535))
 (.node 1 (.leaf 11204034560000000000000000000000000000000000112040345600000000000000000000000000000000001120403456110192033510369259011056444687000011204034560000000000108660218910576578300000112040345600000000001084682666000000000000001120403456000000000000000000000000000000000011204034560000000000000000000000000000000000112040345600000000000000000000000000000000001120403456000000000000000000000000000000553611204034560000000000000000000000000000000000112040345600000000000000000000000000000000001120403456000000000000000000000000000000000011204034560000000000104881423600000000000000112040345600000000000000000000000000000000001120403456000000000000000000000000000000000011204034560000000000000000000000000000000000)
 (.leaf 11156848640000000000000000000010340122370000111961702400000000001095799144105676206700001114112000000000000011083515431076204471000011204034560000000000110030173010856146665537111568486400000000001061850133000000000000001120403456000000000000000000001035166316000011204034560000000000000000000000000000000000112040345600000000001112038284000000000000001120403456000000000011152130831088425236000011204034560000000000106064552910810825490000112040345600000000001021557971109257482855381120403456103764195310946577691093753686000011204034560000000000000000000010966934220000112040345600000000000000000000109318379355391120403456105601948000000000001089572354554011204034560000000000000000000010774030840000))))
 (.node 4 (.node 2 (.node 1 (.leaf 11204034560000000000000000000010822019005541112001024000000000001041798005108158608100001120403456000000000000000000001082437352554211120148480000000000000000000010794339610000111856844800000000000000000000103126391600001120403456000000000000000000001078163526000011204034560000000000000000000010728505370000112040345600000000000000000000000000000000001120403456000000000000000000001073983841000011204034561058030850110012840000000000000000112040345611102710261088966099108410038000001120403456109124953711140095281041070384000011204034560000000000110405201410266870640000112040345610752085891112982212105982562400001120403456108312451111099937181065241924000011204034560000000000000000000000000000000000)
 (.leaf 11204034560000000000000000000000000000005543112040345600000000000000000000000000000000001120403456000000000010796264330000000000000011204034560000000000000000000000000000000000112040345600000000000000000000000000000000001120403456000000000000000000000000000000000011204034561066368531111163641710776008795544112040345600000000000000000000107025982155451120403456104064923500000000001047577055000011204034561075588966110986820300000000000000112040345600000000001117083245104028001500001120403456000000000011170962870000000000000011204034560000000000110743005410862942810000112040345600000000000000000000108483881200001120403456093264248511075154351087623842554611004805121095136078104889141210356653360000))
 (.node 1 (.leaf 11204034560000000000000000000010939496285547112040345600000000000000000000109382626355481116340224000000000000000000001077964753000011189616640000000000000000000010662063000000112040345600000000000000000000099791514100001120403456000000000000000000001048086833000011204034560000000000000000000010338070920000112040345600000000000000000000000000000000001120403456000000000000000000000000000000000011204034560000000000110210863610657481930000112040345611163535451059333551107777157900001120403456109338541611082514040000000000000011204034561022732108110008399300000000000000112040345600000000000000000000102685258700001120403456000000000000000000000000000000000011204034560000000000000000000000000000000000)
 (.leaf 11204034560000000000000000000000000000000000112040345600000000001068226314000000000000001120403456000000000000000000000000000000000011204034560000000000000000000000000000000000112040345600000000000000000000000000000000001120403456000000000000000000000000000000000011204034560000000000000000000000000000000000112040345600000000000000000000000000000000001106771968000000000010979356181069323303000011204034560000000000000000000010441983100000112040345600000000000000000000106374191800001120403456000000000000000000001044853856000011204034561063615113110799180310478367240000112040345600000000001117090546103142195200001120403456000000000011157960521076814455000011204034561035561846110525037910746447585549)))
 (.node 2 (.node 1 (.leaf 11204034560994072865111591133010944667670000112001024000000000000000000000108922763100001120403456000000000000000000001094797382000011193548800000000000104055649110571525960000110677196800000000000000000000000000000000001120403456000000000000000000001065439988000011204034560000000000000000000000000000000000112040345610510439961057640730108959892300001120403456000000000000000000001028826237000011204034560000000000000000000000000000005550112040345600000000000000000000000000000000001120403456000000000000000000000000000000000011204034560000000000000000000010248413720000112040345600000000000000000000000000000000001120403456109177963710883807841033089940000011204034561083912963109357448610582706290000)
 (.leaf 11204034560000000000000000000000000000000000112040345600000000000000000000104011097600001120403456000000000000000000000000000000000011204034560000000000000000000000000000000000112040345600000000001025114741103055951200001120403456101842479310656795330000000000000011204034560000000000000000000000000000000000112040345600000000000000000000101912080000001120403456000000000000000000000000000000000011204034561074107572105402859510800524990000111568486400000000001093673681104090180700001120403456000000000000000000001039897965000011204034560000000000109940068810309640720000112040345600000000001109890302103781994700001120403456000000000000000000001087192157000011204034560000000000106801995410916375335551))
 (.node 1 (.leaf 11204034560000000000101677982010889229950000112040345610932974331115581422108220655800001109917696000000000000000000001040428776000011204034560000000000000000000010913166995552112040345610720654110000000000107079682900001120403456000000000000000000001089147080000011193548800000000000105406215010302751770000112040345600000000000000000000108253922600001120403456000000000000000000001070495375000011204034561097381385103935524210746760840000112040345600000000000000000000000000000000001120403456000000000000000000000000000000000011204034560000000000000000000000000000000000112040345600000000000000000000000000000055531120403456000000000000000000000000000000000011204034560000000000000000000000000000000000)
 (.leaf 11204034560000000000103581189410575624410000112040345610840811670000000000000000000000001120403456110483094900000000000000000000000011204034560000000000000000000000000000000000112040345600000000001093411956102990262900001120403456108512066211095095640000000000000011204034560000000000000000000000000000000000112040345600000000000000000000000000000000001120403456000000000000000000000000000000000011204034560000000000106851823800000000000000112040345600000000001075909860102675770200001120403456000000000010674738561054107317000011204034560000000000000000000000000000000000112040345600000000000000000000000000000000001120403456000000000000000000001048933656000011204034560000000000108260879210336389950000))))))
 (.node 16 (.node 8 (.node 4 (.node 2 (.node 1 (.leaf 11204034561065718456000000000000000000000000112040345600000000000000000000105714240600001120403456000000000000000000001039134976000011204034561049443550000000000010656344700000112040345600000000000000000000102502857900001120403456000000000011080539571024837418000011204034560000000000111698258210662394230000112040345610654191091116998323103065618200001120403456000000000000000000001096324532555411204034560000000000110274800510915946485555112040345600000000001111686696108774428655561120403456108345550711167155361040554195000011204034561119473919108285562710714310910000111712665611167619411077024098000000000000001120403456000000000000000000001098124691555711204034560000000000000000000010750973130000)
 (.leaf 11204034560000000000000000000010874331510000112040345600000000000000000000105486482855581086324736000000000000000000000000000000000011204034560000000000000000000010759453085559112040345600000000000000000000000000000000001119617024000000000000000000001071761125000011204034560000000000000000000010505271110000112040345600000000000000000000106866669400001120403456000000000000000000000000000000000011204034560000000000000000000010763661940000112040345600000000000000000000104891787200001120403456000000000000000000000000000000000011204034560000000000000000000000000000000000112040345600000000000000000000106854483800001120403456000000000000000000001045757390000011204034560000000000110749863110442740380000))
 (.node 1 (.leaf 11204034561105569922109063899700000000000000112040345600000000000000000000000000000000001120403456000000000000000000000000000000000011204034560000000000000000000010505062550000112040345600000000001082285621104130171900001120403456000000000010360132211054627931000011204034560000000000000000000000000000000000112040345600000000000000000000000000000000001120403456105933692300000000001050506353000010936647680000000000000000000000000000000000111607808010662913481105447774102528451900001120403456000000000000000000000000000000000011204034560000000000000000000010718460880000110519910400000000000000000000000000000000001120403456000000000000000000001075845065000011204034560000000000000000000010466237220000)
 (.leaf 11204034560000000000000000000010428333545560112040345600000000001116178835107466978000001120403456000000000010880108461095238933556111204034560000000000107619717010919374650000112040345600000000001105284196107786952855621120403456111760509710983034591057544102000011204034560000000000107633684010824666900000112040345610697608511084303920108898136900001120403456000000000000000000001084449329556311204034560000000000107845286610914458135564112040345600000000001105927130108773859055651120403456000000000000000000001077947792000011189616640000000000103342281910650543700000111817523200000000000000000000107699021600001120403456000000000010767478821077219233000011204034560000000000000000000010240265510000)))
 (.node 2 (.node 1 (.leaf 11204034560000000000000000000000000000005566112040345600000000000000000000000000000000001120403456000000000000000000001086219233000011204034560000000000110714809210689477310000112040345610922546761094073503106930250400001120403456111571901100000000000000000000000011204034560000000000107460710900000000000000112040345600000000000000000000000000000000001120403456105479850210746352111042345660000011204034560000000000105848126810475490540000112040345600000000001033436240104239230700001120403456000000000000000000000000000000000011204034560000000000102511474100000000000000112040345600000000000000000000000000000000001120403456000000000000000000001060462754000011204034560000000000107420906900000000000000)
 (.leaf 11204034560000000000000000000010219913830000112040345600000000001108087092107731100655671120403456000000000011024479551075854951556811204034560000000000109943004910992430465569112040345600000000001115568210108796996300001120403456109636222210781835921099400679557011204034560000000000108512579410828239370000112040345600000000000000000000108774052700001115684864000000000010573622281052075578000011171266560000000000000000000000000000000000111358771200000000000000000000103190395000001108344832000000000000000000001033715971000011148984320000000000000000000010621013270000112040345600000000001095707813106932679700001120403456000000000000000000001058609117557111204034560000000000000000000010384302870000))
 (.node 1 (.leaf 11204034560979413068000000000000000000000000112040345600000000000000000000108972150600001120403456000000000000000000001061426852000011204034560000000000000000000010574835290000112040345600000000000000000000106589893200001120403456000000000000000000000000000000000011204034560000000000000000000000000000000000112040345600000000001062764492103361791300001120403456000000000010926977711029842818000011204034560000000000107334168710685444360000112040345600000000000000000000000000000000001120403456111204972311073676380000000000000011204034560000000000108385240410190361080000112040345609793958880000000000106595634455721120403456000000000000000000001070824985000011204034560979413068000000000010253152720000)
 (.leaf 11204034560000000000000000000010354098490000112040345600000000000000000000107262675900001120403456000000000011077435260000000000557311204034560000000000110761625510833906440000112040345600000000001106488852108638644455741120403456000000000011107106291073241520000011204034560000000000111707021610453271670000110834483211053613251088274140106134413400001105199104110236418210837964101053300793000011204034560000000000105132746310998994665575112040345610999314051082045707106935715200001120403456109926782511045571661078165627000011204034561042054428000000000010761970140000111044198410251174261096605185100973306700001108344832000000000010672297480000000000000010779361280000000000000000000000000000000000))))
 (.node 4 (.node 2 (.node 1 (.leaf 11204034560000000000000000000010564833460000112040345600000000000000000000106256505000001120403456000000000000000000001044325480000011204034560000000000000000000000000000000000112040345600000000000000000000000000000000001120403456000000000000000000001024915550000011204034560000000000000000000000000000000000112040345600000000000000000000000000000000001120403456000000000000000000000000000000000011204034560000000000000000000010877566780000112040345600000000000000000000105771082800001120403456000000000000000000001084041556000011204034560000000000000000000000000000000000112040345600000000000000000000107482680100001120403456000000000000000000000000000000000011204034560000000000000000000000000000000000)
 (.leaf 11204034560000000000000000000000000000000000112040345600000000000000000000000000000000001120403456000000000010788609721068865057557611204034560000000000107800155910151463330000112040345600000000001066727270000000000000001120403456000000000000000000000000000000000011204034560000000000000000000000000000000000112040345600000000001095546752102521154400001114898432000000000010495826330000000000000011204034560000000000000000000010743706665577112040345600000000001100688130000000000000001120403456000000000011064262001080171985557811204034560000000000110771600110787345030000112040345600000000001107841620107007833355791120403456000000000011133823751075659909558011204034560000000000111069959310930756875581))
 (.node 1 (.leaf 11204034560000000000111205579510851289025582112040345611038718931113270832107619988100001120403456110915193710881100411090760275558311204034561112788566108697044910923329730000112040345611072479661095230711109169296900001120403456000000000011071642931099352654558411204034560000000000108241166010757095540000111896166410504022341063376860105695684255851112014848000000000000000000001020764565000011204034560000000000000000000000000000000000112040345600000000000000000000105399412400001120403456000000000000000000000000000000000011204034561092114325101881993010433763130000112040345600000000000000000000000000000000001120403456000000000000000000001058266434558611204034560000000000000000000000000000000000)
 (.leaf 11204034560000000000000000000010743199060000112040345600000000000000000000107539607600001120403456000000000000000000001049868240000011204034560000000000000000000000000000000000112040345600000000000000000000104863869800001120403456000000000000000000001057867084000011204034560000000000000000000000000000000000112040345610554557660000000000000000000000001120403456000000000000000000001050689264000011204034561031864685104097256600000000000000112040345610463423491077346409000000000000001120403456000000000000000000000000000000000011204034560000000000000000000000000000005587112040345610630476411090819247104077742300001102053376000000000000000000000000000000000011204034561107870242110246242500000000000000)))
 (.node 2 (.node 1 (.leaf 11204034560000000000000000000000000000000000112040345600000000000000000000105779194700001120403456000000000000000000001021663847000011204034561062631683110586542210925717135588112040345600000000001110603884107619610155891120403456000000000010750118591092349285559011204034560000000000110724943710767300545591110519910410819626511100652950000000000000001120403456110950824410822541641086069997000011204034561087712860109295456710850766820000112040345610928156411090558886109617520755921120403456110731320411050522511092225882559311204034560000000000102506105410921974240000112040345600000000001101178339107308448200001120403456000000000000000000001051937733000011204034560000000000000000000010222041075594)
 (.leaf 11204034560000000000000000000010441912810000112040345600000000000000000000107024006000001120403456000000000000000000000000000000000011204034560000000000000000000000000000000000112040345600000000000000000000000000000000001120403456000000000000000000000000000000000011204034560000000000000000000010719383520000112040345600000000001045549390108744281900001120403456000000000000000000001051403693000011204034560000000000000000000010827557360000112040345600000000000000000000107498515455951120403456000000000000000000001059758262000011204034560000000000000000000000000000000000112040345600000000001035248180103754718400001120403456000000000000000000000000000000000011204034561061165287107181580010507356450000))
 (.node 1 (.leaf 11204034560000000000000000000010295044240000112040345611061165401097731880000000000000001120403456110412749110855949271033060331000011204034561109078685110502640400000000000000108632473600000000000000000000000000000000001120403456000000000000000000001072924405559611204034561074479388000000000010753972345597112040345610335701901107971775105878819800001120403456000000000011073664841088194548000011204034560000000000110999536910581123410000112040345600000000001097686476109100652555981120403456000000000010930842761083187706559911204034560000000000111339349010873578245600112040345600000000001115973799109206530400001120403456097925844911162594311069980127000011204034560000000000111720506300000000000000)
 (.leaf 11204034561041543796108167031710946429225601112040345611092014621091284815109198251500001120403456109092893310990743191087453325560211204034560000000000105728673110662709020000112040345600000000001068889014104699409500001077936128000000000000000000000000000000000011204034560000000000000000000010321467530000112040345600000000000000000000106009573500001120403456000000000000000000000000000000000011204034560000000000000000000000000000000000112040345600000000000000000000000000000000001120403456000000000000000000000000000000000011204034560000000000000000000000000000000000112040345600000000000000000000000000000000001120403456000000000000000000001031550617000011204034560000000000000000000010769993580000)))))
 (.node 8 (.node 4 (.node 2 (.node 1 (.leaf 11204034560000000000000000000010751178970000112040345600000000000000000000000000000056031120403456000000000000000000001083515307560411204034560000000000000000000010518877980000112040345600000000001033395975000000000000001120403456000000000010716304110000000000000011204034560000000000102983920500000000000000112040345600000000001030483450104500038200001120403456000000000000000000000000000000000011204034560000000000109175740810291100330000112040345600000000001086971707000000000000001120403456102045738610171556300000000000000011204034560000000000000000000000000000000000110834483200000000000000000000104279447400001120403456109485071011072266830000000000000011204034560000000000106999547210563699740000)
 (.leaf 11204034560000000000000000000010833094425605112040345610468915000000000000106607802500001120403456106974880500000000000000000000000011204034561043220511000000000010740551330000112040345600000000001108046355104286405200001120403456000000000011164480181032033083560611204034560000000000110796076510643348760000112040345600000000001108716474108640189200001120403456000000000000000000001094044542560711204034560000000000106569966610934842110000112040345610616922091080837328109658779656081120403456110991143410850645571092230782560911204034561113817765108266961010921642435610112040345610181096490000000000104520927956111120403456105020657800000000001056988867000011204034560000000000000000000010628738575612))
 (.node 1 (.leaf 11204034560000000000000000000010739780200000112040345600000000000000000000000000000000001120403456000000000000000000001029551753000011204034561076199166109387794400000000000000112040345611005139571010592383107258340100001120403456110271924700000000000000000000000011204034560000000000000000000000000000000000112040345600000000000000000000000000000000001120403456000000000000000000000000000000000011204034560000000000000000000000000000000000112040345600000000000000000000000000000056131120403456000000000000000000001072688084000011204034560000000000000000000010681494930000112040345600000000000000000000000000000000001120403456000000000000000000001076733916000011204034560000000000000000000000000000000000)
 (.leaf 11204034560000000000000000000000000000000000112040345600000000000000000000000000000000001120403456000000000000000000000000000000000011204034560000000000000000000000000000000000112040345600000000001051377795000000000000001120403456000000000010741071481024127685000011204034560000000000108188129000000000000000112040345600000000001018336746000000000000001120403456107581338711141848760000000000000011204034560000000000110997715000000000000000112040345600000000000000000000000000000000001120403456107342650500000000000000000000000011204034560000000000000000000000000000000000112040345600000000000000000000107316768300001120403456000000000000000000001064077068561411204034560000000000110806116610273568620000)))
 (.node 2 (.node 1 (.leaf 11204034560000000000110777320110740075925615112040345600000000001107997675105071976500001120403456000000000011079080741070606947000011204034560000000000110102357010928232910000112040345600000000001107617382108300065800001120403456000000000011160267781085031748561611204034560000000000111467026210594653000000112040345600000000000000000000108940524500001120403456000000000010668405161098659480000011204034561097914426110522206810829968965617112040345610211757191085296922108245584700001120403456000000000000000000001084083724000011204034560000000000000000000010531885630000112040345610445116860000000000108376651756181120403456000000000000000000001024299483000011204034560000000000000000000000000000000000)
 (.leaf 11204034560000000000000000000000000000000000112040345600000000000000000000102632030800001120403456109320754800000000000000000000000011204034560000000000000000000010417815410000112040345600000000000000000000000000000000001120403456000000000000000000000000000000000011204034560000000000000000000000000000000000112040345600000000000000000000000000000000001120403456000000000000000000000000000000000011204034560000000000000000000000000000000000112040345600000000000000000000107460642300001120403456000000000010619340191071678688000011204034560000000000103706011900000000000000112040345600000000000000000000104507149900001120403456000000000010506865740000000000000011204034560000000000000000000000000000000000))
 (.node 1 (.leaf 10968104960000000000103021501500000000000000112040345600000000000000000000000000000000001120403456000000000000000000001066021378000011204034561059271878110801754500000000000000112040345600000000001092961174102959043400001120403456000000000011154983751083955275000011204034560000000000111708848810430157790000112040345610729135920000000000107497565500001120403456102164601810858797201075728230000011204034560000000000101613557510813678070000112040345600000000001024551027108589534000001120403456000000000010596925831083969343000011181752320000000000000000000010618362540000111607808000000000000000000000105201010200001120403456000000000000000000001030353770000011204034560000000000000000000000000000000000)
 (.leaf 11204034560000000000000000000010296837500000112040345600000000000000000000102410368600001120403456000000000000000000001075260334000011204034560000000000000000000010432095410000112040345600000000000000000000000000000000001120403456000000000000000000000000000000000011204034560000000000000000000010202558340000112040345600000000000000000000105781231800001120403456000000000000000000000000000000000011204034560000000000000000000010665549850000112040345600000000000000000000107728609700001120403456000000000000000000000000000000000011204034560000000000000000000000000000000000112040345600000000000000000000000000000056191120403456000000000010463211421051331308000011204034560000000000105685052310321434170000))))
 (.node 4 (.node 2 (.node 1 (.leaf 11204034561050968666000000000000000000000000112040345600000000000000000000103873332100001120403456108339820211091503740000000000000011204034560000000000000000000000000000000000112040345610739993880000000000000000000000001120403456108974991200000000000000000000000010936647681027156193109182569910712979510000112040345600000000000000000000106511208800001120403456105395343300000000001049200538000011204034560000000000110805427210374401860000112040345600000000001107874284000000000000001120403456104685002711076595881063375043000011204034561053285331110772318400000000000000112040345600000000001107579293107142714256201120403456000000000011080172571048144777000011204034560000000000110503437310870979035621)
 (.leaf 11204034560000000000110495447110907217940000112040345600000000001099875012108814869700001120403456000000000011165485241083833863000011204034560000000000105663577510797421855622112040345600000000001029302334107899188000001120403456000000000010390733851077278216000011204034560000000000104120744710778827780000112040345600000000001073491843107582708200001096810496000000000000000000000000000000000011200102400000000000000000000010383662470000112040345600000000000000000000103236062900001120403456105738298100000000001029203917000011204034560000000000000000000010308179050000112040345600000000000000000000105163841400001120403456000000000000000000000000000000562311204034560000000000000000000000000000000000))
 (.node 1 (.leaf 11204034560000000000000000000010662754610000112040345610938663621023772564103207181800001120403456000000000000000000000000000000000011204034560000000000000000000010123650850000112040345600000000000000000000102873614500001120403456000000000000000000001044495973000011204034560000000000000000000000000000000000112040345600000000000000000000000000000056241120403456000000000000000000001070831835000011204034560000000000000000000010715468545625112040345600000000000000000000106039774700001120403456000000000000000000001025864700000011204034560000000000000000000010696883330000112040345600000000000000000000105557393300001120403456000000000000000000001071550031000011204034560000000000000000000000000000000000)
 (.leaf 11204034560000000000000000000010139888630000112040345600000000000000000000000000000000001120403456000000000010167798200000000000000011204034560000000000000000000000000000000000112040345600000000001026027422000000000000001120403456000000000000000000001029090129000011204034561113153942000000000000000000000000112040345600000000000000000000000000000000001120403456110566851610341341721063469574000011204034560000000000000000000010242682730000112001024000000000000000000000103835871300001120403456000000000000000000001063567648000011204034560000000000110798129110501345855626112040345600000000001107180913000000000056271120403456000000000011079693371061475610000011204034560000000000109240259700000000005628)))
 (.node 2 (.node 1 (.leaf 11204034560000000000110759460210654398135629112040345600000000001013598860109119602200001120403456000000000010970755761099353740563011204034561051748437111697575310626642630000112040345600000000001117089707104442764200001120403456105410731400000000001088420718000011204034560000000000000000000010828931820000112040345600000000000000000000107665764300001120403456000000000010659446131082513477563111204034560000000000103689905810875353845632112040345600000000000000000000108404175600001120403456000000000000000000001081662677000011204034560000000000000000000010544794125633112040345600000000000000000000000000000000001120403456000000000000000000001053834288000011204034560000000000000000000010502076915634)
 (.leaf 11204034560000000000000000000010590243830000112040345610755198150000000000000000000000001120403456000000000000000000001031880680000011204034560000000000000000000000000000000000112040345600000000000000000000108141119000001120403456000000000000000000001061312208563511204034560000000000000000000010503080230000112040345600000000000000000000106612523600001120403456000000000000000000001042984091000011204034560000000000000000000000000000000000112040345600000000001050559067103500308600001120403456000000000000000000001043875838000011204034560000000000000000000010521293840000112040345600000000001085453160108314903000001120403456000000000000000000000000000000563611204034560000000000000000000010225096100000))
 (.node 1 (.leaf 11204034560000000000000000000000000000000000112040345611136297491081423272000000000000001120403456000000000000000000000000000000563711135877120000000000108605713910617698490000111896166400000000000000000000104095365300001120403456000000000000000000001075994363563811204034560000000000000000000010750775075639112040345610533982751108003573000000000000001120403456000000000011061994461090584657564011204034561044165874111140898110513732150000112040345600000000001117063348105716112900001120403456000000000000000000001089444924564111204034560000000000000000000010939875205642112040345600000000000000000000102385525400001120403456000000000000000000001031934946000011204034560000000000000000000010178999840000)
 (.leaf 11204034560000000000000000000010279156120000112040345600000000000000000000000000000000001120403456000000000000000000001049891336000011204034560000000000000000000000000000000000112040345600000000000000000000105338269600001120403456000000000000000000001054043309000011204034560000000000000000000010246904995643112040345600000000000000000000103111278300001120403456000000000000000000001076103397000011204034560000000000000000000010480583720000112040345600000000000000000000000000000000001120403456000000000000000000001053813277000011204034560000000000000000000000000000000000112040345600000000000000000000104444777000001120403456000000000000000000000000000000000011204034560000000000000000000000000000000000)))))))
 (.node 32 (.node 16 (.node 8 (.node 4 (.node 2 (.node 1 (.leaf 11204034560000000000000000000000000000000000112040345600000000000000000000000000000000001120403456000000000000000000000000000000000011204034560000000000000000000010716141410000112040345600000000000000000000106523268800001120403456105588395400000000001071449140000011204034560000000000110767348110570236835644112040345600000000001107734351107960118900001120403456000000000011080646260978374604000011204034560000000000110804992010306002740000112040345600000000001108035817000000000056451120403456000000000010833394401077474505564611204034560000000000110541584510913007035647112040345600000000001104181723109622906656481120403456000000000011140425321041635412000011204034560000000000000000000010724386300000)
 (.leaf 11104419840000000000000000000010636941260000111961702400000000000000000000104080945200001120403456000000000000000000001039023692564911204034560000000000000000000010406191720000112040345600000000000000000000000000000000001120403456000000000000000000001002979660000011204034560000000000000000000010296008490000112040345600000000000000000000000000000000001120403456000000000000000000001032229776000011204034560000000000000000000000000000000000112040345600000000000000000000000000000000001120403456000000000000000000001049095238000011204034560000000000000000000000000000000000112040345600000000000000000000103741117700001120403456000000000000000000000000000000000011204034560000000000000000000010552408780000))
 (.node 1 (.leaf 11204034560000000000000000000010651392130000112040345600000000000000000000000000000000001120403456103468674700000000000000000000000011204034560000000000000000000000000000000000112040345610778171401046173503000000000056501120403456110956626210522938311045219706565111204034560000000000000000000010383739490000112040345600000000001025007367000000000000001120403456000000000000000000000000000000000011204034560000000000000000000000000000005652112040345600000000000000000000000000000000001120403456000000000000000000000000000000000011204034560000000000000000000000000000000000112040345600000000001030268702000000000000001120403456000000000000000000001038430461000011204034560000000000000000000000000000000000)
 (.leaf 11204034560000000000000000000000000000000000112040345600000000000000000000000000000000001120403456000000000011079803211044142634565311204034560000000000110804627600000000000000112040345600000000001107985800106006518600001120403456000000000010916662871046016433565411204034560000000000111614710310662244210000112040345600000000001117013121106513530400001120403456000000000000000000001099111462000011204034560000000000000000000010705833790000112040345600000000000000000000106777597800001120403456000000000000000000001079857539000011204034560000000000000000000010786213205655111712665600000000001033409397106859658600001120403456000000000000000000001032978935000011204034560000000000000000000010280433960000)))
 (.node 2 (.node 1 (.leaf 11204034560000000000000000000010446749800000112040345600000000000000000000104102141700001120403456000000000000000000000000000000000011204034560000000000000000000010424973450000112040345600000000000000000000105066187200001120403456000000000000000000001077306025000011204034560000000000000000000000000000005656112040345600000000000000000000000000000000001120403456000000000000000000001052455039000011204034560000000000000000000010572211950000112040345600000000000000000000107600111656571120403456000000000000000000001066754023000011204034560000000000000000000010681257050000112040345600000000000000000000106543913500001120403456000000000000000000001077991465000011204034560000000000000000000010723292500000)
 (.leaf 11204034560000000000000000000010272237840000112040345600000000000000000000105525704700001120403456000000000000000000001058167903565811204034560000000000000000000010487670780000112040345600000000000000000000102741620800001120403456000000000010756825280000000000000011204034560000000000109028709510389582170000112040345610905616011043254267102588377456591120403456000000000000000000001067117149000011204034560000000000000000000010503189030000112040345600000000001016833507000000000000001120403456000000000000000000000000000000000011204034560000000000000000000000000000000000112040345611075695941055293597105260152256601120403456000000000000000000001034788015000011204034560000000000102290014910674291985661))
 (.node 1 (.leaf 11204034560000000000000000000010257787650000112040345600000000001107949755105988431200001120403456000000000011080412951039712284566211204034560000000000110798535410367009765663112040345600000000001108066723103057423400001120403456000000000011076438331061442782000011204034560000000000111686725100000000000000112040345600000000001102503844107379972856641120403456000000000011167035951080634113000011204034560000000000000000000010758540360000112040345600000000001057900777108502617900001120403456000000000000000000000000000000000011204034560000000000000000000000000000000000112040345600000000000000000000000000000000001120403456000000000000000000001025718423000011204034560000000000000000000000000000005665)
 (.leaf 11204034560000000000000000000000000000000000112040345600000000000000000000105769898700001120403456000000000000000000001043297062000011204034560000000000000000000000000000000000112040345600000000000000000000108060165656661120403456000000000000000000000000000000000011204034560000000000000000000000000000000000112040345600000000000000000000102830460800001120403456000000000000000000001035837476000011204034560000000000000000000000000000000000112040345600000000001066848905103326424600001120403456000000000000000000000000000000000011204034561075944823104447564800000000005667112040345600000000000000000000107615555000001120403456000000000000000000000000000000000011204034561067206352000000000010490441040000))))
 (.node 4 (.node 2 (.node 1 (.leaf 11204034561103963630102586636010470346170000112040345600000000000000000000106996956200001120403456000000000000000000001048566152000011204034560000000000000000000000000000000000112040345611129865470000000000000000000056681120403456000000000000000000000000000000000011204034560000000000000000000000000000000000112040345600000000000000000000000000000000001109917696110410661210412745561038872330566911204034560000000000107635781110419220550000112040345600000000000000000000109054491156701120403456000000000010872061691058898601567111204034560000000000111702544210622287440000112040345600000000001117028418106222682100001120403456000000000011170532951058823457000011204034560000000000111012809310391116865672)
 (.leaf 11204034560000000000110801670610577769620000112040345600000000000000000000108566540200001109917696000000000000000000001049713942000011204034561016788947107674997910768001770000112040345610426018351085893562108069917556731102053376000000000000000000001052934296000011204034560000000000000000000000000000000000112040345600000000000000000000104631198100001120403456000000000000000000001050057918000011204034560000000000000000000000000000000000112040345600000000000000000000000000000000001120403456000000000000000000001056194832000011204034560000000000000000000000000000000000112040345600000000000000000000000000000000001120403456000000000000000000000000000000000011204034560000000000000000000010740847170000))
 (.node 1 (.leaf 11204034560000000000000000000000000000000000112040345600000000000000000000000000000000001120403456000000000000000000000000000000000011204034560000000000000000000000000000000000112040345600000000000000000000107943026456741120403456000000000000000000001058065857000011204034560000000000000000000010569364590000112040345610403494601016726133000000000056751120403456000000000010251147411061737482000011204034560000000000000000000000000000000000112040345610747164380000000000101058230500001120403456000000000000000000001057781897000011204034560000000000000000000000000000000000112040345600000000000000000000000000000000001120403456000000000000000000000000000000000011204034561063536629110879881310536923810000)
 (.leaf 11204034560000000000110061703710772391495676112040345600000000001085817016104789221956771120403456000000000011075632761068906175567811204034560000000000110988222810252675025679112040345600000000001109869042000000000056801120403456000000000010917826791099419278568111204034560000000000109915679010692599455682112040345600000000000000000000107790609256831120403456000000000000000000000000000000000011204034560000000000000000000010114660780000112040345600000000000000000000103389009500001120403456000000000000000000000000000000568411204034560979413068000000000010420330910000112040345600000000000000000000103461830300001120403456000000000000000000000000000000000011204034560000000000000000000010571248910000)))
 (.node 2 (.node 1 (.leaf 11204034560000000000000000000010319293240000112040345600000000000000000000000000000000001120403456000000000000000000001042492775000011204034560000000000000000000010337123710000112040345600000000000000000000000000000000001120403456000000000000000000001025564847000011204034560000000000000000000000000000000000112040345600000000000000000000000000000056851120403456000000000000000000000000000000568611204034560000000000000000000010831966380000112040345600000000001041871824107964135400001120403456110502443610116661251044678539000011204034561080771234000000000010573944300000112040345600000000001092908220106599090100001120403456000000000000000000000000000000568711204034560000000000000000000000000000000000)
 (.leaf 11204034560000000000000000000000000000000000112040345611012407251110213788000000000000001120403456000000000000000000000000000000000011204034560000000000111040853410643307895688112040345600000000001090650007000000000000001120403456000000000011080409281040687109568911204034560000000000000000000000000000005690112040345600000000001096526961105444631000001120403456000000000000000000001039154296000011141120000000000000000000000010652467540000111856844800000000001105198685107075921800001120403456000000000000000000001040830727000011204034560000000000000000000010216350880000112040345600000000000000000000102494022600001120403456000000000000000000000000000000000011204034560000000000000000000010217261510000))
 (.node 1 (.leaf 11204034560000000000000000000010383839955691112040345600000000000000000000000000000000001120403456000000000000000000000000000000000011204034560000000000000000000000000000000000112040345600000000000000000000000000000000001120403456000000000000000000000000000000000011204034560000000000000000000010681492700000112040345600000000000000000000000000000000001120403456000000000000000000000000000000000011204034560000000000000000000000000000000000112040345600000000000000000000103698976400001120403456000000000000000000000000000000000011204034560000000000000000000000000000000000112040345600000000000000000000000000000056921120403456000000000000000000000000000000000011204034560000000000000000000000000000000000)
 (.leaf 11204034561091384525106215715600000000005693112040345600000000000000000000000000000000001120403456000000000000000000001014593370000011204034560000000000000000000000000000000000112040345611000624550000000000102610491000001120403456000000000000000000000000000000000011204034560000000000000000000000000000000000112040345600000000001089233905104729226556941120403456000000000000000000000000000000000011204034560000000000097004520700000000000000112040345600000000000000000000000000000000001120403456000000000000000000001016647688569511204034560000000000110793095910609405795696112040345600000000001103385172107661531856971120403456000000000000000000001053229096569811204034560000000000000000000010871035115699)))))
 (.node 8 (.node 4 (.node 2 (.node 1 (.leaf 11204034560000000000109977544910872308435700112040345600000000000000000000108234154257011120403456000000000010987701801058303273000011204034560000000000000000000010460162870000112040345600000000000000000000000000000000001120403456000000000000000000001071488445570211204034560000000000000000000010244116925703112040345600000000001061158912000000000057041120403456000000000010707907120000000000570511204034560000000000000000000000000000000000112040345600000000000000000000000000000000001120403456000000000000000000000000000000000011204034560000000000000000000000000000000000112040345600000000000000000000000000000057061120403456000000000000000000001051709507570711204034560000000000000000000000000000000000)
 (.leaf 11204034560000000000000000000000000000000000112040345600000000000000000000000000000000001120403456000000000000000000000000000000000011204034560000000000000000000000000000000000112040345600000000000000000000102299210500001120403456000000000000000000001023194876000011204034560000000000000000000000000000000000112040345600000000000000000000000000000057081120403456000000000000000000001038259511000011204034560000000000000000000010528559350000112040345600000000000000000000000000000000001120403456000000000000000000000000000000000011204034560000000000000000000000000000000000112040345610805558111020484230103244620500001120403456000000000000000000000000000000000011204034560000000000000000000000000000000000))
 (.node 1 (.leaf 11204034561093628850000000000000000000000000112040345600000000000000000000104578368300001120403456000000000000000000001043801177000011120148480000000000000000000000000000000000111856844800000000001086915713105881729100001120403456000000000010755197890000000000570911204034560000000000000000000000000000005710112040345600000000001070086069104037443800001120403456000000000000000000000000000000000011204034560000000000110782130410715912410000112040345600000000001113858009106505821700001120403456000000000000000000001078534469571111204034560000000000000000000010837625910000112040345610682176570000000000104770788300001120403456110948210110426704201049669115000011204034560000000000000000000010408433180000)
 (.leaf 11204034560000000000000000000010677167140000112040345600000000000000000000103218417157121120403456000000000000000000000000000000000011204034560000000000000000000010263013200000112040345600000000000000000000000000000057131120403456000000000000000000001041121119571411204034561053917899000000000010439788740000112040345600000000000000000000000000000000001120403456000000000000000000000000000000000011204034561108790708103468446510432053960000112040345600000000000000000000000000000000001120403456000000000000000000000000000000000011204034560000000000000000000010268230875715112040345600000000000000000000000000000000001120403456000000000000000000000000000000000011204034560000000000000000000000000000000000)))
 (.node 2 (.node 1 (.leaf 11204034560000000000000000000000000000000000112040345600000000000000000000000000000000001120403456000000000000000000001063376428000011204034560000000000000000000000000000000000112040345600000000000000000000000000000000001120403456000000000000000000001030666746000011204034560000000000000000000000000000000000112040345600000000000000000000000000000000001120403456000000000010161892621098940962000011204034560000000000000000000010642602400000112040345600000000000000000000000000000000001120403456000000000000000000000000000000000011204034560000000000106778171800000000000000112040345600000000001050025551000000000057161120403456000000000000000000001026324141000011204034560000000000110795046310492719850000)
 (.leaf 11204034560000000000110151556110692005000000112040345610443990101110058520105052255500001120403456000000000011050116711069901989571711141120000000000000000000000000000000000000112040345600000000001055075493000000000057181120403456000000000000000000001054934551571911204034560000000000000000000000000000000000112040345600000000000000000000000000000000001120403456000000000000000000000000000000000011204034560000000000000000000010672063140000112040345610163352910000000000107029336800001120403456106042188900000000001029480183000011204034560000000000000000000010705764295720112040345600000000000000000000000000000000001120403456000000000000000000000000000000000011204034560000000000000000000010743705595721))
 (.node 1 (.leaf 11204034560000000000000000000010504131325722112040345600000000000000000000104045978700001120403456000000000000000000000000000000000011204034560000000000000000000000000000000000112040345600000000000000000000000000000000001120403456110600131100000000000000000000000011204034560000000000000000000000000000000000112040345600000000000000000000000000000000001120403456000000000000000000001038807252000011204034560000000000000000000010291196280000112040345600000000000000000000000000000000001120403456105858164600000000001089596294000011204034560000000000000000000000000000000000112040345600000000000000000000000000000000001120403456000000000010742384301018744180000011204034560000000000000000000010419226010000)
 (.leaf 11204034560000000000105028727610447285055723112040345610612886501107931641105737512657241120403456000000000010857283061085463713572511204034560000000000000000000010782366655726112040345610531184651107072962107318232657271120403456000000000000000000000000000000000011204034560000000000000000000010188561695728112040345600000000000000000000000000000000001120403456000000000000000000001038263210572911193548800000000000000000000010680636410000111411200000000000000000000000104930651300001120403456000000000000000000000000000000000011204034560000000000000000000000000000005730111634022400000000000000000000106710501657311120010240000000000000000000001085959317573211204034560000000000000000000000000000000000))))
 (.node 4 (.node 2 (.node 1 (.leaf 11204034560000000000000000000000000000000000112040345600000000000000000000102846368157331120403456000000000000000000000000000000573411204034560000000000000000000010723693570000112040345600000000000000000000000000000000001120403456000000000000000000001052226660000011204034560000000000000000000000000000000000112040345600000000000000000000000000000000001120403456000000000000000000000000000000000011204034560000000000000000000000000000000000112040345600000000000000000000000000000000001120403456000000000000000000000000000000000011204034560000000000000000000010207236190000112040345600000000000000000000000000000000001120403456000000000000000000000000000000000011204034560000000000000000000010331555280000)
 (.leaf 11204034560000000000101683350710444161960000112040345600000000000000000000000000000000001120403456107047423500000000000000000000000011204034560000000000107844280000000000005735112040345600000000000000000000000000000000001120403456000000000000000000000000000000000011204034560000000000000000000000000000005736112040345600000000000000000000000000000000001120403456000000000011079349701058955913573711204034561076492436110573429710564189645738112040345610712851191097569665000000000057391120403456000000000010711270951084502217574011204034560000000000000000000010738817025741112040345600000000001065527699105224382357421120403456106425034911075992941070156265574311181752320000000000000000000010636346130000))
 (.node 1 (.leaf 11204034560000000000000000000010168346925744112040345600000000000000000000104593705857451120403456000000000000000000001050204351000011204034560000000000000000000000000000000000112040345600000000000000000000106667771300001120403456000000000000000000001026660288000011176071140000000000104999870800000000000000112040345600000000000000000000000000000000001120403456000000000000000000001032984308000011204034560000000000101618926210477522960000112040345600000000000000000000000000000000001120403456000000000000000000000000000000000011204034560000000000000000000000000000000000112040345600000000000000000000000000000000001120403456000000000000000000000000000000000011204034561087329362103026870210622972250000)
 (.leaf 11204034560000000000000000000000000000000000112040345600000000000000000000000000000000001120403456000000000000000000000000000000000011204034560000000000000000000000000000000000112040345600000000000000000000000000000000001120403456000000000000000000000000000000574611204034560000000000000000000000000000000000112040345600000000000000000000102123309900001120403456000000000000000000000000000000000011204034560000000000108647342410683189070000112040345600000000000000000000102282667200001120403456000000000011027249891049600054574711204034560000000000106574160910688332275748112040345600000000001103826203107514891857491086324736000000000010430260970000000000575011204034560000000000000000000000000000005751)))
 (.node 2 (.node 1 (.leaf 11204034560000000000000000000010445794230000112040345600000000000000000000101122969300001120403456000000000000000000001034569496000011204034560000000000000000000010342322420000112040345600000000000000000000000000000000001120403456000000000000000000000000000000000011204034560000000000000000000000000000005752112040345600000000000000000000000000000000001120403456000000000000000000001062270992575311204034560000000000000000000010556709270000112040345600000000000000000000000000000000001120403456000000000000000000000000000000000011204034560000000000000000000000000000000000112040345600000000000000000000000000000000001120403456000000000000000000000000000000000011204034560000000000000000000000000000000000)
 (.leaf 11204034560000000000000000000000000000000000112040345600000000000000000000000000000000001120403456000000000000000000000000000000000011204034560000000000000000000000000000000000112040345600000000000000000000104517092457541120403456000000000000000000000000000000000011204034560000000000000000000000000000005755112040345600000000000000000000000000000057561120403456000000000000000000001023554535575711204034560000000000000000000000000000005758112040345600000000001075331885000000000057591120403456000000000011057922831055049282000011204034560000000000110919656410582603755760112040345600000000001103579264105687655457611120403456000000000010681608830000000000576211204034560000000000000000000010834029645763))
 (.node 1 (.leaf 11204034560000000000110433596910515604415764112040345600000000001098039847104846126157651120403456000000000000000000000000000000000011204034560000000000000000000000000000000000112040345600000000000000000000000000000057661120403456000000000000000000000000000000000011204034560000000000000000000010306338310000112040345600000000000000000000000000000000001120403456000000000000000000000000000000000011204034560000000000000000000000000000000000112040345600000000000000000000000000000000001120403456000000000000000000000000000000000011204034560000000000000000000010619457880000112040345600000000000000000000104962675600001120403456000000000000000000001049956352000011204034560000000000000000000010608702540000)
 (.leaf 11204034560000000000000000000010363295810000112040345600000000000000000000000000000000001120403456000000000000000000000000000000000011204034560000000000000000000000000000000000112040345600000000000000000000000000000000001120403456000000000000000000000000000000000011204034560000000000000000000000000000000000112040345600000000000000000000103987782500001120403456000000000000000000001044268938000011204034560000000000000000000010304694280000112040345610606417380000000000000000000000001120403456000000000000000000000000000000000011204034560000000000000000000009855720040000112040345600000000000000000000000000000000001120403456000000000000000000000000000000000011204034560000000000000000000000000000000000))))))
 (.node 16 (.node 8 (.node 4 (.node 2 (.node 1 (.leaf 11204034560000000000000000000010358140350000112040345600000000000000000000000000000000001120403456000000000010974182511050921809576710779361280000000000107073534710582214300000112040345600000000000000000000103489964100001120403456000000000000000000000000000000576811204034560000000000000000000010333676455769112040345600000000000000000000000000000000001120403456000000000000000000000000000000000011204034560000000000000000000000000000005770112040345600000000000000000000102310729400001120403456000000000000000000000000000000000011204034560000000000000000000000000000000000112040345600000000000000000000107558458957711120403456000000000000000000000000000000577211204034560000000000000000000010462659725773)
 (.leaf 11204034560000000000000000000000000000000000112040345600000000000000000000000000000000001120403456000000000000000000000000000000000011204034560000000000000000000010461695180000112040345600000000001048072684000000000057741120403456110329750810426637091082149515000011204034560000000000000000000000000000000000112040345600000000000000000000000000000000001120403456000000000000000000000000000000000011204034560000000000000000000000000000000000112040345600000000000000000000000000000000001120403456000000000000000000001017865272000011204034560000000000000000000000000000000000112040345600000000000000000000000000000000001120403456000000000000000000000000000000000011204034560000000000000000000000000000005775))
 (.node 1 (.leaf 11204034560000000000000000000010479805250000112040345600000000000000000000000000000000001120010240105410768300000000001040530612577611204034560000000000000000000000000000000000112040345600000000001093625866103808587857771120403456000000000000000000001032859570577811204034560000000000107418306500000000000000112040345600000000001055565388106557046757791120403456000000000011064321251067374157000011204034561053263655109652234710587832510000112040345600000000001092168555105240153100001120403456000000000011036852751035773645578011204034560000000000110770457110697412065781112040345600000000000000000000000000000000001116733440000000000000000000001066267173000011204034560000000000000000000010410798445782)
 (.leaf 11204034560000000000000000000000000000005783112040345600000000000000000000000000000000001119354880000000000000000000001061536225000011204034560000000000000000000000000000000000112040345610510489620000000000000000000000001118436944000000000000000000001062949727000011204034560000000000000000000000000000000000112040345600000000000000000000000000000000001120403456000000000000000000000000000000000011204034560000000000000000000000000000000000112040345600000000000000000000103092351600001120403456000000000000000000001025426853578411204034560000000000000000000010239978170000112040345600000000000000000000000000000000001120403456000000000000000000000000000000000011204034560000000000000000000000000000000000)))
 (.node 2 (.node 1 (.leaf 11204034560000000000000000000000000000000000112040345610797366841060482790108304761000001120403456000000000000000000000000000000000011204034560000000000000000000000000000000000112040345600000000000000000000000000000000001120403456000000000000000000000000000000000011204034560000000000000000000010375247250000112040345600000000001074248496107674122857851120403456105829282711003943711063118219000011204034560000000000000000000000000000005786112040345600000000001067280079102801652900001120403456107209335310850247111056703781578711204034560000000000110800422810587981385788112040345600000000000000000000000000000057891096810496000000000000000000001068685809000011204034560000000000000000000010483949585790)
 (.leaf 11204034560000000000000000000000000000005791112040345600000000000000000000000000000000001120403456000000000000000000000000000000000011204034560000000000000000000010208212930000112040345600000000000000000000107560824500001120403456000000000000000000000000000000579211204034560000000000000000000000000000000000112040345600000000001030215015000000000000001120403456000000000010678916091043820386000011204034560000000000000000000000000000000000112040345600000000000000000000000000000057931120403456000000000000000000000000000000000011204034560000000000000000000000000000000000112040345600000000000000000000000000000000001120403456000000000000000000000000000000000011204034560000000000000000000000000000000000))
 (.node 1 (.leaf 11204034560000000000000000000000000000000000112040345600000000000000000000105844133000001120403456000000000000000000001067817763000011204034560000000000000000000010592114995794112040345600000000000000000000105259022357951120403456000000000000000000001032559815000011204034560000000000000000000000000000005796112001024000000000001074361323104193514500001120403456000000000010931437311059391828579711204034560000000000000000000010559866245798112040345600000000001091052136000000000057991120403456000000000010910922961041060373000011204034560000000000105132075310167930755800112040345600000000001096463732106132302000001120403456000000000010801595290000000000000011204034560000000000000000000000000000000000)
 (.leaf 11204034560000000000000000000010429109390000112040345600000000001107934393106901172900001120403456000000000010754157711041905547580111204034560000000000109489474810409567745802112040345600000000000000000000104217962458031120403456000000000000000000001057895405000011104419840000000000000000000010411957200000112040345600000000000000000000000000000058041120403456000000000000000000001038243430580511204034560000000000000000000000000000005806112040345600000000000000000000105904841958071120403456000000000000000000000000000000000011204034560000000000000000000010501825100000112040345600000000000000000000000000000000001120403456000000000010335301930000000000000011204034560000000000101688719410258709035808))))
 (.node 4 (.node 2 (.node 1 (.leaf 11204034560000000000000000000000000000005809112040345600000000000000000000000000000000001120403456000000000000000000000000000000000011204034560000000000000000000000000000000000112040345600000000000000000000000000000000001120403456000000000000000000001040378351000011204034560000000000000000000000000000000000112040345600000000000000000000000000000000001120403456000000000000000000001037517052000011204034560000000000000000000000000000000000112040345600000000000000000000000000000058101120403456000000000010819320410000000000000011204034560000000000106917674400000000005811112040345600000000000999304672000000000000001120403456000000000010804648740000000000581211204034560000000000109374466910599358915813)
 (.leaf 11204034560000000000000000000000000000000000112040345610598336461075759284000000000058141120403456000000000000000000001049224890000011204034560000000000000000000000000000000000112040345600000000001100250245105256083258151120403456000000000010558103361059519615581611204034560000000000000000000000000000000000112040345600000000000000000000100594557058171120403456000000000000000000001040195243581811204034560000000000000000000000000000000000112040345600000000000000000000104670579400001120403456000000000000000000000000000000000011197220130000000000000000000000000000000000112040345600000000000000000000000000000000001120403456000000000000000000000000000000000011204034560000000000000000000000000000000000))
 (.node 1 (.leaf 11204034560000000000104624732210465692985819112040345600000000000000000000000000000000001120403456000000000000000000000000000000000011204034560000000000000000000000000000000000112040345600000000000000000000000000000000001120403456000000000000000000000000000000000011204034560000000000000000000000000000000000112040345600000000000000000000102451004458201103626240000000000000000000001050420547000011204034560000000000109018139910532324160000112040345600000000001090651685102808686300001120403456000000000010862234440000000000000011204034561111715202105309578210391351365821112040345600000000001086091323103269757600001120403456000000000010917626511049858900000011204034560000000000000000000010223169750000)
 (.leaf 11204034560000000000000000000010634433495822112040345600000000001072137922000000000058231120403456000000000011074407241066308383582411171266560000000000110355325910612126335825112040345600000000000000000000105454091400001116340224000000000000000000000000000000000011156848640000000000000000000000000000000000112040345600000000000000000000104200540400001120403456104877410500000000000000000000000011204034560000000000000000000000000000005826112040345600000000000000000000000000000000001120403456000000000000000000000000000000000011204034560000000000000000000010667487215827112040345600000000000000000000000000000000001120403456000000000000000000000000000000582811030288660000000000000000000000000000000000)))
 (.node 2 (.node 1 (.leaf 11204034560000000000000000000000000000005829112040345600000000000000000000000000000000001120403456000000000010299465790000000000000011204034560000000000000000000000000000000000112040345600000000000000000000000000000000001120403456000000000000000000000000000000000011204034560000000000000000000000000000000000112040345600000000000000000000000000000000001120403456000000000000000000000000000000000011204034560000000000000000000000000000000000112040345610301508591108718361107367584000001120403456000000000000000000000000000000583011204034560000000000000000000000000000005831112040345600000000000000000000000000000058321120403456000000000000000000000000000000000011120148480000000000107911808310775308800000)
 (.leaf 11204034560000000000000000000000000000000000112040345600000000001093071903000000000058331120403456000000000010324027641041046650583411204034560000000000106757368100000000000000112040345600000000000000000000104566950758351120403456000000000000000000000000000000000011204034560000000000000000000000000000005836112040345600000000000000000000105810035700001119354880000000000000000000000000000000583711204034560000000000106097436300000000000000112040345600000000000000000000000000000000001120403456000000000000000000000000000000000011204034560000000000000000000010621862900000112040345600000000000000000000000000000000001120403456000000000000000000001054885330583811204034561065084948000000000010380652205839))
 (.node 1 (.leaf 11204034560000000000000000000000000000005840112040345600000000000000000000000000000000001120403456000000000000000000000000000000000011204034560000000000000000000000000000000000112040345600000000000000000000105976245200001120403456000000000000000000000000000000000011204034560000000000000000000000000000000000112040345600000000000000000000102558873200001120403456000000000000000000000000000000000011204034560000000000000000000000000000000000112040345600000000000000000000000000000000001120403456111398865700000000000000000000000011204034560000000000000000000010315116335841112040345600000000000000000000000000000058421120403456000000000000000000000000000000000011204034560000000000108342856900000000000000)
 (.leaf 11204034560000000000108303535300000000000000112040345600000000000000000000000000000000001120403456000000000000000000001024086610584311204034560000000000103557030200000000005844112040345610435953810000000000000000000000001120403456105631378610440461521055112691584511156848640000000000000000000010130917230000112040345600000000000000000000102684509900001120403456000000000000000000001041085240584611167334400000000000000000000000000000000000108632473600000000000000000000104233491200001114112000104559012500000000001057508212000011204034560000000000000000000000000000005847111712665600000000000000000000000000000058481120403456000000000000000000000000000000584911204034560000000000000000000000000000005850)))))
 (.node 8 (.node 4 (.node 2 (.node 1 (.leaf 11204034560000000000000000000010257973250000112040345600000000000000000000102143400700001110743083000000000000000000001065819864000011204034560000000000000000000000000000000000112040345600000000000000000000096698838000001120403456000000000000000000000000000000000011204034560000000000000000000000000000000000112040345600000000000000000000000000000000001120403456000000000000000000000000000000000011204034560000000000000000000000000000000000112040345600000000000000000000000000000000001116340224000000000000000000000000000000000010936647680000000000107528113410546851930000112040345600000000001032550403102721056758511120403456000000000010487337061036909014585211204034560000000000000000000000000000000000)
 (.leaf 11204034560000000000105811720300000000000000112040345600000000000000000000000000000000001120403456000000000010865239651046630397585311204034560000000000101769250100000000005854112040345600000000000000000000000000000000001120403456000000000010435227030000000000585511204034560000000000108258782100000000000000112040345600000000001068413380102785548558561120403456000000000000000000000000000000585711204034560000000000107111535100000000005858112040345600000000001073393697000000000058591120403456101732903900000000001037290331000011204034560000000000000000000000000000005860112040345600000000000000000000104987701658611116078080000000000000000000000000000000000011204034560000000000000000000010524491040000))
 (.node 1 (.leaf 11204034560000000000000000000000000000000000112040345600000000000000000000000000000000001120403456000000000000000000000000000000000011204034560000000000000000000010214185705862112040345600000000000000000000000000000000001120403456000000000000000000000000000000000011204034560000000000000000000000000000000000112040345600000000001043099917000000000000001120403456000000000000000000000000000000000011204034560000000000000000000010550764000000112040345600000000000000000000000000000058631120403456000000000000000000000000000000000011204034560000000000000000000000000000000000112040345600000000000000000000000000000000001120403456000000000010918982321023380592000011083448320000000000000000000010478836950000)
 (.leaf 11204034561057779612000000000010303254495864109366476800000000001078711235105974796900001120403456000000000010573555171028954578586511204034560000000000000000000010309993735866112040345600000000000000000000000000000000001111228416000000000000000000000000000000000011204034560000000000000000000000000000000000112040345600000000000000000000000000000000001120403456000000000000000000000000000000000011204034560000000000000000000010350380850000112040345600000000001040630311000000000000001120403456000000000000000000000000000000000011204034560000000000000000000000000000000000112040345600000000000000000000000000000000001120403456000000000000000000001075388953000011204034561045321489000000000010537589925867)))
 (.node 2 (.node 1 (.leaf 11204034560000000000100683428710263194865868112040345600000000000000000000000000000058691120403456000000000010318927360000000000000011204034560000000000000000000000000000000000112040345600000000001101062839101925267958701120403456000000000010777733890000000000000011204034560000000000106323425400000000000000112040345600000000001085109646104533574358711120403456000000000000000000001025549527587211196170240000000000000000000010497445110000111935488000000000000000000000107518890658731120403456000000000000000000001065006119587411204034560000000000000000000010280852585875112040345600000000000000000000106839425058761120403456000000000000000000001050136027587711204034560000000000000000000000000000000000)
 (.leaf 11204034560000000000000000000010107657795878112040345600000000000000000000000000000000001120403456000000000000000000000000000000000011204034560000000000000000000000000000000000112040345600000000000000000000000000000000001120403456000000000000000000001060290847000011204034560000000000000000000000000000000000112040345600000000000000000000000000000000001120403456000000000000000000000000000000000011204034560000000000000000000000000000000000112040345600000000000000000000104069737800001120403456000000000000000000000000000000000011204034560000000000000000000010453508965879111607808000000000000000000000105403409158801120403456104330936300000000001054828378588110994319360000000000000000000000000000000000))
 (.node 1 (.leaf 11204034561080468913108259956510498315170000112040345600000000000000000000000000000000001120403456000000000000000000000000000000000011204034560000000000110510525600000000000000112040345600000000001080006436101918063700001120403456000000000000000000000000000000000011204034560000000000108424687800000000005882112040345600000000000000000000000000000000001120403456000000000000000000000000000000588311204034560000000000000000000000000000000000112040345610717577341094547774106363680100001113587712000000000000000000001037313883000011204034560000000000000000000010317495585884112040345600000000000000000000000000000058851120403456108260210900000000001033675163588611204034560000000000000000000000000000005887)
 (.leaf 11204034560000000000000000000000000000005888112040345600000000000000000000000000000000001120403456000000000000000000000000000000000011204034560000000000000000000000000000000000112040345610611411450000000000103611187600001120403456000000000000000000001065520408000011204034560000000000000000000000000000000000112040345600000000000000000000000000000000001120403456000000000000000000000000000000000011204034560000000000000000000000000000000000112040345600000000000000000000000000000000001120403456000000000000000000000000000000000011204034560000000000000000000000000000000000112040345600000000000000000000000000000000001120403456000000000000000000000000000000000011204034560000000000000000000010586712780000))))
 (.node 4 (.node 2 (.node 1 (.leaf 11204034560000000000000000000010158444660000112040345600000000000000000000000000000000001120403456000000000000000000000000000000000011171266560000000000000000000010781490130000111961702400000000000000000000105387005958891120403456000000000010747316800000000000589011204034560000000000107456600500000000000000112040345600000000000000000000101205885900001120403456000000000010864918791027012555000011204034560000000000103920760300000000000000112040345600000000001078730949103862796100001120403456000000000000000000000000000000000011204034560000000000000000000010408550540000112040345600000000000000000000106498343100001120403456000000000000000000000000000000589111036262400000000000000000000010487557275892)
 (.leaf 11204034560000000000000000000010590160100000112040345600000000000000000000106412660600001120403456000000000000000000001015926652589311204034560000000000000000000010443588740000112040345600000000000000000000103183084058941120403456000000000010168871940000000000000011204034560000000000000000000010689110290000112040345610640672590000000000000000000000001120403456000000000010313961311074554203000011204034560000000000103981158200000000000000112040345600000000000000000000103523184000001120403456000000000000000000000000000000000011204034560000000000000000000000000000000000112040345600000000000000000000000000000000001120403456000000000000000000000000000000000011204034560000000000102508789800000000000000))
 (.node 1 (.leaf 11204034560000000000000000000000000000000000112040345600000000000000000000104780583258951107558400000000000000000000001055598797000011204034560000000000000000000000000000005896112040345600000000001009196519102078079258971120403456000000000000000000000000000000000011204034560000000000000000000010286625525898112040345600000000001065674500000000000000001120403456000000000000000000000000000000000011204034560000000000000000000000000000005899112040345600000000001070787356000000000059001120403456000000000000000000000000000000590111204034560000000000000000000000000000000000112040345600000000000000000000000000000000001120403456000000000000000000000000000000000011204034560000000000000000000000000000005902)
 (.leaf 11204034560000000000000000000000000000000000112040345600000000000000000000000000000000001120403456105227403410302418581054324908000011204034560000000000000000000000000000000000112040345600000000000000000000000000000000001120403456000000000000000000001036704088000011204034560000000000000000000000000000000000112040345610701325751060046583000000000059031120403456000000000000000000001069052706000011204034560000000000000000000000000000000000112040345600000000001041824848106670739300001120403456000000000000000000000000000000000011204034560000000000000000000000000000000000111961702400000000000000000000104097218000001120403456105901070700000000001062244872590411200102400000000000000000000010332950375905)))
 (.node 2 (.node 1 (.leaf 11204034561059637520000000000010340479055906112040345600000000001099969384103371458800001120403456000000000000000000000000000000000011204034560000000000000000000000000000000000112040345600000000000000000000000000000059071120403456000000000010712244031035578819000011204034560000000000106374763600000000000000112040345600000000000000000000000000000059081120403456000000000000000000000000000000590911204034560000000000000000000000000000005910112040345600000000001077130822000000000000001120403456000000000000000000000000000000591111204034560000000000000000000000000000000000112040345600000000000000000000000000000059121120403456000000000000000000001049168438000011179130880000000000000000000010308858960000)
 (.leaf 11189616640000000000000000000000000000005913111044198400000000000000000000000000000000001109131264000000000000000000000000000000000011204034560000000000000000000000000000000000112040345600000000000000000000000000000000001120403456000000000000000000000000000000591411164246740000000000109711133210372360750000112040345600000000000000000000000000000000001120403456105345112300000000001024310799000011204034560000000000000000000000000000000000112040345600000000001025114741000000000000001120403456101636911410313961311050046769000011204034560000000000000000000000000000000000112040345600000000000000000000000000000000001120403456000000000010525354230000000000000011204034560000000000000000000000000000000000))
 (.node 1 (.leaf 11204034560000000000000000000000000000000000112040345600000000001029973423000000000000001120403456000000000000000000000000000000000011204034560000000000000000000010208592350000112040345600000000000000000000000000000000001120403456000000000000000000000000000000000011204034560000000000000000000010537322530000112040345600000000000000000000000000000000001120403456000000000010337046760000000000000011204034560000000000102322227100000000000000112040345600000000000000000000000000000059151120403456000000000010821065240000000000000011204034560000000000108981250900000000000000112001024010599843061107716263108183706600001103626240000000000000000000000000000000000011204034560000000000099349304400000000005916)
 (.leaf 11156848641083338996103155719210561589020000112040345600000000000000000000000000000000001120403456000000000000000000001027530919591711204034560000000000000000000000000000000000112040345600000000000000000000000000000000001120403456000000000000000000000000000000000011204034560000000000000000000000000000000000112040345600000000000000000000000000000000001120403456000000000010518710450000000000000011204034560000000000000000000000000000000000112040345600000000000000000000000000000000001120403456000000000000000000001063267766000011204034560000000000000000000000000000000000111817523210738051870000000000104450936959181120403456105824571600000000001047199017591911204034560000000000108225332500000000000000)))))))))
 (.node 128 (.node 64 (.node 32 (.node 16 (.node 8 (.node 4 (.node 2 (.node 1 (.leaf 11204034560000000000105585395600000000005920112040345600000000001091767579105473060659211120403456000000000000000000000000000000592211204034561058672495000000000000000000005923112040345600000000000000000000000000000059241120403456105861370811087733591059179624000011204034561091792056104429445400000000000000112040345600000000000000000000000000000000001120403456000000000000000000000000000000592511204034560000000000000000000000000000000000112040345611037442320000000000000000000000001120403456000000000010870937620000000000000011204034560000000000104976382700000000000000112040345600000000001097024825108443631700001120403456108014675710510388951041695306592611204034560000000000000000000000000000000000)
 (.leaf 11204034560000000000000000000000000000000000112040345600000000000000000000000000000059271120403456000000000000000000001054695564000011204034561070372229000000000010606539425928112040345600000000000000000000000000000000001120403456000000000000000000000000000000000011204034560000000000103887205800000000000000112040345600000000000000000000000000000000001120403456000000000010774021931020949139000011204034560000000000107727217000000000000000112040345600000000000000000000000000000059291120403456105568846600000000000000000000593011204034560000000000110342889800000000000000112040345610705111191016135575000000000000001120403456105883020110769999590000000000000011204034561105387705000000000000000000000000))
 (.node 1 (.leaf 11204034560000000000106325103110428474605931112040345600000000000000000000103989713500001120403456000000000000000000000000000000000011204034560000000000000000000000000000000000112040345600000000000000000000000000000000001120403456000000000000000000000000000000000011204034560000000000000000000000000000000000112040345600000000000000000000000000000000001120403456000000000000000000000000000000000011204034560000000000000000000000000000000000112040345600000000000000000000000000000000001120403456000000000000000000000000000000000011204034560000000000109716103510828169300000112040345600000000001097826671105326938800001120403456108331658710706229401043152521593211204034560000000000000000000000000000000000)
 (.leaf 11204034560000000000000000000000000000000000112040345600000000000000000000000000000000001120403456000000000000000000000000000000000011204034560000000000000000000010453013170000112040345600000000000000000000104455572259331119617024108550582310185514941045019142593411204034560000000000000000000000000000000000112040345600000000001086430642000000000000001120403456000000000010469653870000000000000011204034560000000000000000000000000000000000112040345600000000000000000000000000000000001120403456000000000011080443890000000000593511204034561048935267000000000010603118420000112040345600000000000000000000000000000059361120403456000000000000000000000000000000000011204034560000000000107123111400000000000000)))
 (.node 2 (.node 1 (.leaf 11204034560000000000000000000000000000000000112040345611041037470000000000000000000000001120403456111949758900000000000000000000000011204034561108238010000000000000000000000000112040345600000000000000000000000000000000001120403456000000000000000000001058466485000011204034560000000000103739566300000000000000112040345600000000000000000000000000000000001120403456000000000010973752591057140301000011204034560000000000109604671310839464775937112040345600000000000000000000103311872000001120403456108397957510587815801058345376593811204034561099531278106129984110830580830000112040345600000000000000000000000000000000001120403456000000000000000000000000000000000011148984320000000000000000000010441075255939)
 (.leaf 11204034561047656609100951864100000000005940111568486400000000000000000000107961555359411120403456000000000000000000001045193743594211204034560000000000000000000010582544280000112040345600000000001107880863000000000000001120403456000000000010832928831027039846594311204034560000000000000000000010344205325944112040345600000000001107721873105163060300001120403456000000000000000000001044068695594511204034561036302326111376597000000000000000112040345610713748521041026253000000000059461120403456000000000000000000000000000000594711204034560000000000000000000000000000000000112040345610953852830000000000000000000000001120403456000000000000000000000000000000000011204034561090067207000000000000000000000000))
 (.node 1 (.leaf 11204034560000000000000000000000000000000000112040345600000000000000000000000000000000001120403456111968546400000000000000000000000011204034561103701549000000000000000000000000112040345600000000000000000000000000000000001120403456104879709000000000001055646032000011204034560000000000109747938310618928280000112040345600000000000000000000107929394900001120403456000000000000000000000000000000594811204034560000000000000000000010361186430000111961702400000000000000000000104424248159491120403456000000000000000000000000000000000011204034560000000000110408787610260411070000112040345600000000000000000000000000000059501120403456000000000010717805670000000000000011204034560000000000000000000010224816865951)
 (.leaf 11204034560000000000000000000010375671920000112040345610577819100000000000000000000059521120403456000000000000000000001028130188000011204034560000000000000000000010464397230000112040345600000000000000000000000000000000001120403456000000000000000000000000000000000011204034560000000000000000000009935969710000112040345610978377020000000000000000000000001120403456000000000000000000000000000000000011204034560000000000000000000000000000000000112040345600000000000000000000000000000000001120403456000000000000000000000000000000000011204034561084210886105202539610174556275953112040345600000000001096601620105389116500001120403456000000000000000000001051829487000011204034560000000000000000000000000000005954))))
 (.node 4 (.node 2 (.node 1 (.leaf 11204034560000000000000000000000000000000000112040345600000000000000000000102774199859551120403456000000000000000000000000000000000011204034560000000000000000000000000000000000112040345600000000000000000000000000000059561120403456000000000000000000000000000000000011204034560000000000107590356800000000000000112040345600000000000000000000000000000000001120403456000000000010672792401034671289000011204034560000000000108970891010177836475957112040345600000000001076135513102367806500001120403456000000000011103305730000000000000011204034561100923610000000000000000000000000110048051210684855390000000000000000000000001120403456000000000000000000000000000000000011204034560000000000000000000000000000000000)
 (.leaf 11204034560000000000000000000000000000000000112040345610442566051038455983000000000059581120403456000000000000000000000000000000000011204034560000000000109690350510656996580000112040345600000000001095660523108099517659591120403456000000000010922961671071297751000011204034560000000000104902898500000000000000112040345600000000000000000000000000000000001120403456000000000000000000000000000000596011204034561061135726000000000010368960545961112040345600000000000000000000000000000059621120403456104369953410658011680000000000596311099176960000000000000000000000000000000000110913126400000000000000000000107510357659641120403456000000000000000000000000000000000011204034560000000000000000000010358655135965))
 (.node 1 (.leaf 11204034560000000000000000000010380431945966112040345600000000001108062319105511227700001120403456000000000000000000001054260132596711204034560000000000105001213010343001445968112040345600000000000000000000000000000000001120403456101840653911080895300000000000000010994319360000000000000000000000000000000000112040345600000000000000000000000000000000001120403456000000000000000000001042492090000011204034560000000000000000000000000000000000112040345600000000000000000000000000000000001120403456000000000010182830590000000000000011083448320000000000000000000000000000000000112040345600000000000000000000103719230659691120403456108468791700000000001033781803000011204034560000000000000000000000000000000000)
 (.leaf 11204034560000000000000000000000000000000000112040345600000000000000000000103483288600001120403456110805901500000000000000000000000011204034560000000000000000000000000000000000112040345600000000000000000000000000000000001120403456000000000000000000000000000000000011204034560000000000000000000000000000000000112040345600000000000000000000000000000000001120403456000000000000000000000000000000000011204034560000000000000000000000000000005970112040345600000000001033422819000000000000001120403456000000000000000000000000000000000011204034560000000000000000000000000000000000112040345600000000000000000000000000000000001117913088000000000000000000000000000000000011204034560000000000000000000000000000000000)))
 (.node 2 (.node 1 (.leaf 11204034560000000000000000000000000000000000112040345600000000001083354959000000000000001120403456000000000010740958231025890645597111204034561065532221109393110610484068140000112040345600000000001104411256104463495259721120403456000000000010570686270000000000000011204034560000000000000000000000000000000000112040345600000000000000000000000000000059731120403456000000000000000000000000000000000011204034560000000000000000000000000000000000112040345600000000000000000000000000000000001120403456000000000000000000000000000000000011204034560000000000000000000000000000000000112040345600000000000000000000000000000000001120403456000000000000000000000000000000000011204034560000000000000000000000000000000000)
 (.leaf 11204034560000000000000000000000000000000000112040345610709938590000000000000000000000001120403456000000000000000000000000000000000011204034560000000000000000000000000000000000112040345600000000000000000000000000000000001120403456000000000000000000000000000000000011204034560000000000109678344310717373200000112040345600000000001096730699103292964859741120403456000000000000000000000000000000000011204034560000000000000000000000000000000000112040345600000000000000000000000000000000001120403456106638798400000000001027292540597511185684480000000000000000000000000000000000112040345600000000000000000000000000000000001120403456000000000000000000000000000000000011204034560000000000000000000000000000000000))
 (.node 1 (.leaf 11204034560000000000104056320210293136235976112040345600000000001100868800104916595500001120403456000000000000000000000000000000000011204034560000000000105901310600000000000000112040345600000000000000000000106248801700001120403456000000000000000000000000000000000011204034560000000000000000000000000000000000112040345610456250220000000000000000000000001120403456000000000000000000000000000000000011204034561029597076000000000000000000000000112040345600000000000000000000000000000000001120403456000000000000000000001015923765000011204034560000000000000000000010463447840000112040345600000000000000000000104451944400001120403456000000000010967072111057054693597711204034560000000000109733730110797820820000)
 (.leaf 11204034560000000000000000000000000000000000112040345600000000000000000000000000000000001120403456000000000000000000001034983425597811204034561067864539000000000010082501170000112040345610744875341061333395104821464459791120403456000000000000000000000000000000000011204034560000000000000000000000000000000000112040345600000000001084288192104720888759801120403456000000000011070038610000000000000011204034560000000000111131707310629648060000112040345600000000000000000000000000000000001120403456000000000000000000000000000000000011204034560000000000000000000000000000000000110362624000000000001067293501000000000000001120403456000000000000000000000000000000000011067719680000000000000000000000000000000000)))))
 (.node 8 (.node 4 (.node 2 (.node 1 (.leaf 11189616641061909659000000000010726610330000111607808000000000000000000000104889085700001120403456000000000000000000000000000000000011204034560000000000000000000000000000000000112040345600000000000000000000000000000000001120403456105928389000000000000000000000000011204034560000000000000000000000000000000000112040345600000000000000000000000000000000001120403456000000000000000000000000000000000011204034560000000000000000000000000000000000112040345600000000000000000000000000000000001120403456000000000000000000000000000000000011204034560000000000000000000010373343010000112040345600000000001094256165103770299659811120403456000000000010952355351068319168598211204034560000000000109554727610233145985983)
 (.leaf 11204034560000000000107916086510704424790000112040345610344133450000000000102782518559841120403456000000000000000000001051969940000011204034561091924472107584568710779903975985112040345611036276841078234762109833893359861120403456000000000000000000000000000000000011204034561098452130103561056700000000005987112040345600000000000000000000000000000000001120403456000000000011080451491058743095000011204034560000000000110743306910492022960000112040345600000000000000000000106247596000001120403456000000000000000000000000000000598811204034560000000000000000000000000000000000112040345600000000000000000000000000000000001120403456000000000000000000000000000000000011204034560000000000000000000000000000000000))
 (.node 1 (.leaf 11204034560000000000000000000000000000000000112040345610836260350000000000000000000000001120403456000000000000000000000000000000000011204034560000000000000000000000000000000000112040345600000000000000000000000000000000001120403456000000000000000000001037841688000011204034560000000000000000000000000000000000112040345600000000000000000000000000000000001120403456000000000000000000000000000000000011204034560000000000000000000000000000000000112040345600000000000000000000000000000000001120403456000000000000000000000000000000598911204034560000000000109359273110698829545990112040345600000000001096894277000000000059911120403456000000000010887823881048836875599211204034560000000000000000000010563541635993)
 (.leaf 11204034560000000000000000000010250495110000112040345600000000000000000000000000000000001120403456000000000011097959561079293385599411204034560000000000000000000000000000000000112040345600000000000000000000000000000000001120403456000000000000000000000000000000000011204034560000000000000000000000000000000000111817523200000000001090784330104872979300001120403456000000000000000000000000000000000011204034560000000000000000000000000000000000112040345610163046890000000000000000000000001120403456107756587600000000000000000000000011204034560000000000000000000000000000000000112040345600000000000000000000000000000000001120403456000000000000000000000000000000000011204034560000000000000000000000000000000000)))
 (.node 2 (.node 1 (.leaf 11204034560000000000000000000000000000000000112040345600000000000000000000000000000000001120403456000000000000000000000000000000000011204034560000000000000000000000000000000000112040345600000000000000000000000000000000001120403456000000000000000000000000000000000011204034560000000000000000000000000000000000112040345611011151160000000000103001504400001120403456000000000010252758020000000000000011204034560000000000104937795110508435410000112040345610662285170000000000000000000059951120403456000000000000000000000000000000599611204034560000000000000000000000000000000000112040345600000000000000000000000000000000001120403456000000000000000000001047425451000011204034560000000000000000000000000000000000)
 (.leaf 11204034560000000000000000000010487473175997112040345600000000001068763185107244765759981117519872000000000011099791431078101380599911091312640000000000110542570110717200560000109943193600000000001095087056103447075400001120403456106699016911071025321074670940600011204034560000000000000000000000000000000000112040345600000000000000000000000000000000001120403456000000000000000000000000000000000011204034560000000000000000000000000000000000112040345600000000000000000000000000000000001120403456000000000000000000000000000000000011204034560000000000000000000000000000000000112040345600000000000000000000000000000000001120403456000000000000000000000000000000000011204034560000000000000000000000000000000000))
 (.node 1 (.leaf 11204034560000000000000000000000000000000000112040345600000000000000000000000000000000001120403456000000000000000000000000000000000011204034560000000000000000000010023267520000112040345600000000000000000000000000000000001120403456000000000000000000001043773049000011204034560000000000000000000000000000000000112040345600000000000000000000000000000000001120403456000000000010671601221016361008000011204034560000000000102524895910374366240000112040345600000000001054515134000000000000001120403456000000000000000000000000000000000011204034560000000000105287432310343259576001112040345610920376071054605731000000000060021120403456000000000000000000000000000000600311204034560000000000000000000010419890236004)
 (.leaf 11075584000000000000109736477310581031270000112040345600000000000000000000000000000000001120403456000000000000000000000000000000000011204034560000000000000000000000000000000000112040345600000000000000000000000000000000001120403456000000000000000000000000000000000011204034560000000000000000000000000000000000112040345600000000000000000000000000000000001120403456000000000000000000000000000000000011204034560000000000000000000000000000000000112040345600000000000000000000000000000000001120403456000000000000000000000000000000000011204034561089158196000000000000000000000000112040345600000000000000000000000000000060051109131264000000000000000000000000000000000011204034560000000000000000000000000000000000))))
 (.node 4 (.node 2 (.node 1 (.leaf 11204034560000000000000000000000000000000000112040345600000000000000000000000000000000001120403456000000000000000000000000000000000011204034560000000000000000000000000000000000112040345600000000000000000000000000000000001120403456000000000000000000000000000000000011204034560000000000000000000000000000000000112040345600000000000000000000000000000000001120403456000000000000000000000000000000000011204034560000000000000000000000000000000000112040345600000000000000000000104068778300001120403456107540502910776207160000000000600611204034560000000000000000000000000000006007112040345610764168001044462227102587469960081120403456000000000000000000000000000000000011204034560000000000000000000000000000000000)
 (.leaf 11204034560000000000000000000010449991750000112040345600000000000000000000102194379000001120403456000000000000000000000000000000000011204034560000000000000000000000000000000000112040345600000000000000000000000000000000001120403456000000000000000000000000000000000011204034560000000000000000000000000000000000112040345600000000000000000000000000000000001120403456000000000000000000000000000000600911204034560000000000000000000000000000006010112040345600000000000000000000000000000000001120403456000000000000000000000000000000000011204034560000000000000000000000000000000000112040345610347545270000000000104867480100001120403456105790784000000000001024947277000011204034560000000000000000000000000000000000))
 (.node 1 (.leaf 11204034560000000000000000000010111906570000112040345600000000000000000000000000000000001120403456000000000000000000000000000000000011204034560000000000000000000000000000006011112040345610747937680000000000000000000060121120403456000000000000000000000000000000000010994319360000000000107680492400000000000000112040345600000000000000000000000000000000001120403456000000000000000000000000000000000011204034560000000000000000000000000000000000112040345600000000000000000000000000000000001120403456000000000000000000000000000000000011204034560000000000000000000000000000000000112040345600000000000000000000000000000000001120403456000000000000000000000000000000000011204034560000000000000000000000000000000000)
 (.leaf 11204034560000000000000000000000000000000000112040345600000000000000000000000000000000001120403456000000000000000000000000000000000011204034560000000000000000000000000000000000112040345600000000000000000000000000000000001120403456000000000000000000001020960318000011204034560000000000000000000000000000000000112040345600000000000000000000101910239200001120403456000000000000000000001024942139000011204034560000000000000000000010384920340000112040345600000000000000000000104306328700001120403456000000000000000000000000000000000011204034560000000000103026870200000000000000112040345600000000000000000000000000000000001120403456000000000000000000000000000000601311204034560000000000000000000000000000000000)))
 (.node 2 (.node 1 (.leaf 11204034561044333780000000000010418057250000112040345600000000000000000000104880190960141120403456000000000000000000000000000000601511204034560000000000000000000000000000006016112040345600000000000000000000000000000000001102053376000000000010920666331055039435000011204034560000000000000000000000000000000000112040345600000000000000000000000000000000001120403456000000000000000000000000000000000011204034560000000000000000000000000000000000112040345600000000000000000000000000000000001120403456000000000000000000000000000000000011204034560000000000000000000000000000000000112040345600000000000000000000000000000000001120403456000000000000000000000000000000000011204034560000000000000000000000000000000000)
 (.leaf 11204034560000000000000000000000000000000000112040345610442802270000000000000000000000001120403456000000000000000000000000000000000011204034560000000000000000000000000000000000112040345600000000000000000000000000000000001120010240000000000000000000000000000000000011204034560000000000000000000000000000000000112040345600000000000000000000000000000000001120403456000000000000000000000000000000000011204034560000000000000000000000000000000000112040345610672907920000000000104967544100001120403456109661457100000000000000000000000011204034560000000000107976778100000000000000112040345600000000001035717942000000000000001120403456000000000000000000001064968169000011204034560000000000000000000000000000000000))
 (.node 1 (.leaf 11204034560000000000000000000000000000006017112040345600000000000000000000104107024260181120403456000000000000000000000000000000000011204034560000000000000000000000000000006019112040345600000000000000000000000000000000001120403456000000000000000000000000000000602011204034560000000000000000000000000000000000112040345600000000001106622913106618816000001120403456000000000011075380581068065412602111204034560000000000000000000000000000000000112040345600000000000000000000000000000000001120403456000000000000000000000000000000000011204034560000000000000000000000000000000000112040345600000000000000000000000000000000001120403456000000000000000000000000000000000011204034560000000000000000000000000000000000)
 (.leaf 11204034560000000000000000000000000000000000112040345600000000000000000000000000000000001112801280000000000000000000000000000000000011204034560000000000000000000000000000000000112040345600000000000000000000000000000000001120403456000000000000000000000000000000000011204034560000000000000000000000000000006022112040345600000000000000000000000000000000001120403456000000000000000000000000000000000011204034560000000000000000000000000000000000112040345600000000000000000000104122679700001120403456000000000000000000001047186317000011204034560000000000000000000000000000000000112040345600000000000000000000100987092500001120403456000000000000000000000000000000000011204034560000000000104073097410477918920000))))))
 (.node 16 (.node 8 (.node 4 (.node 2 (.node 1 (.leaf 11204034560000000000000000000000000000000000112040345600000000000000000000000000000060231120403456000000000000000000001061728845000011204034560000000000000000000000000000000000112040345600000000000000000000105550393100001108344832000000000000000000001058292812000011204034560000000000000000000000000000006024110991769600000000001082147419000000000000001107558400000000000010913273871064263393000011204034560000000000000000000000000000000000112040345600000000001062772880000000000000001120403456000000000000000000000000000000000011204034560000000000000000000000000000000000112040345600000000000000000000000000000000001120403456000000000010827081970000000000000011204034560000000000000000000000000000000000)
 (.leaf 11204034560000000000000000000000000000000000112040345600000000000000000000000000000000001120403456000000000000000000000000000000000011204034560000000000000000000000000000000000112040345600000000000000000000000000000000001120403456000000000000000000000000000000000011204034560000000000000000000000000000000000112040345600000000000000000000000000000000001120403456000000000000000000000000000000000011204034560000000000000000000000000000000000112040345600000000000000000000000000000000001120403456000000000000000000000000000000000011204034560000000000000000000000000000000000112040345600000000000000000000000000000000001120403456000000000000000000000000000000000011204034560000000000000000000000000000000000))
 (.node 1 (.leaf 11204034560000000000110276546410633988520000112040345600000000001006941661104225512800001120403456000000000010684536461024636680000011204034560000000000000000000000000000000000112040345610716517440000000000104117435400001120403456000000000000000000000000000000602511204034560000000000000000000000000000000000112040345600000000000000000000102309603760261120403456000000000000000000000000000000000011160780800000000000099392254110684178860000112040345600000000000000000000000000000000001120403456000000000000000000000000000000602711204034560000000000107271170310290684500000112040345600000000000000000000000000000000001120403456000000000000000000000000000000000011204034560000000000000000000000000000000000)
 (.leaf 11204034560000000000000000000000000000000000112040345600000000000000000000000000000000001120403456000000000000000000000000000000000011204034560000000000102527580200000000000000112040345600000000000000000000000000000000001120403456000000000000000000000000000000000011204034560000000000000000000000000000000000112040345600000000000000000000000000000000001105199104108566559900000000000000000000000011204034560000000000000000000000000000000000112040345600000000000000000000000000000000001120403456000000000000000000000000000000000011204034560000000000000000000010267907560000112040345610755875020000000000000000000000001120403456000000000000000000000000000000000011204034560000000000000000000010503785190000)))
 (.node 2 (.node 1 (.leaf 11204034561049155854109217799210469480720000112040345600000000001054360784106086335500001120403456000000000010273427551033730276000011204034560000000000000000000000000000000000112040345610656187570000000000107718918000001120403456000000000000000000001058682116000011204034560000000000000000000000000000006028112040345600000000000000000000104045736860291120403456000000000000000000001024396541603011204034560000000000000000000000000000006031112040345600000000000000000000000000000060321120403456105429280300000000001058458100000011204034560000000000000000000000000000000000112040345600000000000000000000000000000000001120403456000000000000000000000000000000000011204034560000000000000000000000000000000000)
 (.leaf 11204034560000000000000000000000000000000000112040345600000000000000000000000000000000001120403456000000000000000000000000000000000011204034560000000000000000000000000000000000112040345600000000001030053954000000000000001120403456000000000000000000000000000000000011204034560000000000000000000000000000000000112040345600000000000000000000000000000000001107558400000000000000000000000000000000000011181752320000000000000000000000000000000000112040345600000000000000000000000000000060331120403456109535240110318927361038278990000011204034561056974490000000000010383154866034112040345600000000000000000000000000000000001120403456000000000000000000001028585100000011204034561064998713000000000010205585596035))
 (.node 1 (.leaf 11204034561086630979000000000010518989540000111961702410770311991045321220104733437560361103626240000000000000000000001048374957000011204034560000000000000000000000000000000000112040345600000000000000000000000000000000001120403456000000000010648180230000000000000011204034561092396880000000000000000000000000112040345600000000000000000000000000000000001120403456000000000000000000000000000000000011204034560000000000000000000000000000000000112040345600000000001051512013000000000000001120403456000000000000000000000000000000000011204034560000000000000000000000000000000000112040345600000000000000000000000000000000001120403456000000000000000000000000000000000011204034560000000000000000000000000000000000)
 (.leaf 11204034560000000000000000000000000000000000112040345610832399640000000000000000000000001099431936000000000000000000000000000000000011067719680000000000000000000000000000000000111358771200000000000000000000000000000000001120403456000000000010978430291028643019603711204034561070068050000000000010499003446038112040345600000000000000000000000000000000001120403456000000000000000000000000000000603911204034560000000000000000000010444892476040112040345600000000000000000000000000000060411120403456000000000000000000001023688423604211204034560000000000000000000000000000006043112040345600000000000000000000000000000000001120403456000000000000000000000000000000000011204034560000000000000000000000000000000000))))
 (.node 4 (.node 2 (.node 1 (.leaf 11204034560000000000000000000000000000000000112040345600000000000000000000000000000000001120403456000000000000000000000000000000000011204034560000000000108528329000000000000000112040345600000000000000000000000000000000001120403456000000000000000000000000000000000011204034560000000000000000000000000000000000112040345600000000000000000000000000000000001120403456000000000000000000000000000000000011204034560000000000000000000000000000000000112040345600000000000000000000000000000000001120403456000000000010303760760000000000000011204034560000000000000000000000000000000000112040345600000000000000000000000000000000001120403456000000000010952236861008676788000011204034561053479947000000000010307518380000)
 (.leaf 11204034560000000000103903312010457407130000112040345600000000000000000000104053005500001120403456000000000000000000000000000000000011204034560000000000000000000010117492540000112040345600000000000000000000105408807660441120403456000000000000000000001016372040000011204034560000000000000000000009928031530000112040345600000000000000000000000000000060451120403456105234141100000000001052608268000011091312640000000000000000000010584399540000112040345600000000000000000000000000000000001120403456000000000000000000000000000000604611204034560000000000000000000010385479260000112040345610861309440000000000000000000000001120403456000000000000000000000000000000000011204034560000000000000000000000000000000000))
 (.node 1 (.leaf 11204034560000000000000000000000000000000000112040345600000000000000000000000000000000001120403456000000000000000000000000000000000011204034560000000000000000000000000000000000112040345600000000000000000000000000000000001120403456000000000000000000000000000000000011204034560000000000000000000000000000000000112040345600000000000000000000000000000000001120403456000000000000000000000000000000000011204034560000000000000000000000000000000000112040345600000000000000000000000000000000001120403456000000000000000000000000000000000011204034561081629938000000000000000000000000110205337610956020560000000000000000000000001120403456106114423200000000001026456360000011204034561065487610000000000010375570170000)
 (.leaf 11204034561066483782000000000010368849886047112040345610607079570000000000104907348600001120403456000000000000000000001024411552000011204034560000000000000000000000000000006048112040345600000000000000000000104646860560491120403456000000000000000000001010954030000011204034560000000000000000000010167715640000112040345600000000000000000000000000000000001120403456000000000000000000001040003877605011160780800000000000000000000010253197490000112040345600000000000000000000000000000060511114898432000000000000000000000000000000000011204034560000000000000000000000000000000000112040345600000000000000000000000000000000001120403456107181571600000000000000000000000011204034560000000000000000000000000000000000)))
 (.node 2 (.node 1 (.leaf 11204034560000000000000000000000000000000000112040345600000000000000000000000000000000001120403456000000000000000000000000000000000011204034560000000000000000000000000000000000112040345600000000000000000000000000000000001120403456000000000000000000000000000000000011204034560000000000000000000000000000000000112040345600000000000000000000000000000000001120403456108367758500000000001014452576000011204034560000000000000000000010312139850000112040345600000000000000000000102876893760521120403456000000000000000000001033036952000011204034560000000000000000000000000000000000112040345600000000000000000000103746757460531120403456000000000000000000001016218206000011204034560979447428000000000000000000006054)
 (.leaf 11204034560000000000000000000000000000006055112040345600000000000000000000102700039400001120403456098354106800000000000000000000000011204034560000000000000000000000000000000000112040345600000000000000000000000000000000001120403456000000000000000000000000000000000011204034560000000000000000000010270461860000112040345610668846320000000000000000000060561116733440000000000000000000001051651837605711204034560000000000000000000000000000000000112040345600000000000000000000000000000000001120403456000000000000000000001021182406605811204034560000000000000000000000000000000000112040345600000000000000000000000000000000001120403456000000000000000000000000000000000011204034560000000000000000000000000000000000))
 (.node 1 (.leaf 11204034560000000000000000000000000000000000112040345600000000000000000000000000000000001120403456000000000000000000000000000000000011160780800000000000000000000000000000000000112040345600000000000000000000000000000000001120403456000000000000000000000000000000000011204034560000000000000000000000000000000000112040345600000000000000000000000000000000001120403456000000000000000000001021239343605911204034560000000000000000000000000000000000112040345600000000000000000000000000000000001120403456000000000000000000000000000000000011204034560000000000000000000000000000000000112040345600000000000000000000000000000000001120403456000000000000000000000000000000000011204034560000000000000000000000000000000000)
 (.leaf 11204034561081995807000000000000000000000000112040345600000000000000000000000000000000001120403456000000000000000000000000000000000011204034560000000000000000000000000000000000112040345600000000000000000000000000000000001120403456000000000000000000000000000000000011204034560000000000000000000000000000000000112040345600000000000000000000000000000000001120403456104068634600000000001049517202000011204034560000000000000000000000000000006060112040345600000000000000000000000000000060611120403456105930107000000000000000000000000011204034560000000000000000000010337305156062112040345600000000000000000000000000000060631120403456000000000010514012831070462652000011204034560000000000000000000000000000000000)))))
 (.node 8 (.node 4 (.node 2 (.node 1 (.leaf 11204034561036293333000000000000000000006064112040345600000000000000000000000000000060651120403456000000000000000000000000000000606611204034560000000000000000000000000000000000112040345600000000000000000000000000000000001120403456000000000000000000000000000000000011204034560000000000000000000000000000000000112040345600000000000000000000000000000000001120403456000000000000000000000000000000000011204034560000000000000000000000000000000000112040345600000000000000000000000000000000001120403456000000000000000000000000000000000011204034560000000000000000000000000000000000112040345600000000000000000000000000000000001120403456000000000000000000000000000000000011204034560000000000000000000000000000000000)
 (.leaf 11204034560000000000000000000000000000000000112040345600000000000000000000000000000000001120403456000000000000000000000000000000000011204034560000000000000000000000000000000000111961702400000000000000000000000000000000001120403456000000000000000000000000000000000011204034560000000000000000000000000000000000112040345600000000000000000000000000000000001120403456000000000000000000000000000000000011204034560000000000000000000000000000000000112040345600000000000000000000000000000000001120403456107768840400000000000000000000000011204034560000000000000000000000000000000000112040345600000000000000000000103897368700001120403456109281688600000000001059406630000011196170240000000000099778801210683557310000))
 (.node 1 (.leaf 11120148480000000000000000000000000000000000112040345600000000000000000000000000000000001120403456000000000000000000000000000000000011204034560000000000000000000000000000000000112040345600000000000000000000102529577600001120403456000000000000000000000000000000000011204034560000000000000000000000000000000000112040345600000000001067600524000000000000001120403456000000000000000000000000000000000011204034560000000000000000000000000000000000112040345600000000000000000000000000000000001120403456000000000000000000000000000000000011204034560000000000000000000000000000000000112040345600000000000000000000000000000000001120403456000000000000000000000000000000000011204034560000000000000000000000000000000000)
 (.leaf 11204034561099967503000000000000000000000000112040345600000000000000000000000000000000001119617024000000000000000000001047016682000011204034560000000000000000000010245813606067112040345600000000000000000000000000000000001120010240000000000000000000001061954793606811099176960000000000107287024810405262306069112040345600000000000000000000000000000060701113587712000000000000000000001056502183000011204034560000000000000000000000000000000000112040345600000000000000000000000000000000001120403456000000000000000000000000000000000011204034560000000000000000000000000000000000112040345600000000000000000000000000000000001120403456000000000000000000000000000000000011204034560000000000000000000000000000000000)))
 (.node 2 (.node 1 (.leaf 11204034560000000000000000000000000000000000112040345600000000000000000000000000000000001120403456000000000000000000000000000000000011204034560000000000000000000000000000000000111607808000000000000000000000000000000000001120403456000000000000000000000000000000000011204034560000000000000000000000000000000000112040345600000000000000000000000000000000001120403456000000000000000000000000000000000011204034561085871405000000000000000000000000112040345610973853110000000000000000000000001120403456000000000000000000000000000000000011004805120000000000101080713100000000000000112040345600000000000000000000000000000000001120403456000000000000000000001066917307607111204034560000000000000000000000000000006072)
 (.leaf 11204034560000000000000000000010185009076073112040345600000000000000000000103700064300001120403456106662828400000000001042951649000011204034560000000000000000000000000000000000112040345611018168360000000000103264834600001112014848000000000000000000001020135133000011051991040000000000000000000010435226080000111673344000000000000000000000000000000000001120403456000000000000000000001049471973607411204034560000000000000000000010459367550000112040345600000000000000000000000000000000001099431936000000000000000000001034663495000011167334400000000000000000000010712255120000112040345610833410971075882597000000000000001120403456000000000000000000000000000000000011204034560000000000000000000000000000000000))
 (.node 1 (.leaf 11204034560000000000000000000000000000000000112040345600000000000000000000000000000000001093664768000000000000000000000000000000000011204034560000000000000000000000000000000000112040345600000000000000000000000000000000001109917696000000000000000000001056509076000011204034561043312585000000000010262745540000112040345600000000000000000000103526391800001120403456000000000000000000000000000000000011204034560000000000000000000000000000006075112040345610653885320000000000104961435000001120403456000000000000000000000000000000000011204034560000000000000000000000000000000000110362624000000000000000000000106299029800001120403456000000000010399860650000000000000011204034560000000000000000000000000000000000)
 (.leaf 11204034560000000000000000000000000000000000112040345600000000000000000000000000000000001120403456000000000000000000000000000000000011204034560000000000000000000000000000000000112040345600000000000000000000000000000000001120403456000000000000000000000000000000000011204034560000000000000000000000000000000000112040345600000000000000000000000000000000001120403456000000000000000000000000000000000011204034561092977929000000000000000000000000112040345600000000000000000000000000000000001120403456000000000000000000000000000000000011204034560000000000000000000000000000000000112040345600000000000000000000000000000000001120403456000000000000000000000000000000000011204034560000000000000000000000000000000000))))
 (.node 4 (.node 2 (.node 1 (.leaf 11204034560000000000000000000000000000000000112040345600000000000000000000000000000000001120403456000000000000000000000000000000000011204034560000000000000000000000000000000000112040345600000000000000000000000000000000001120403456000000000000000000001029782727607611204034560000000000000000000000000000000000111751987211174687581028604402103915553000001112801280000000000000000000001059334137607711204034560000000000000000000010595619546078112040345600000000000000000000106217812660791100480512000000000000000000000000000000000011204034560000000000000000000010600350940000111568486400000000000000000000104962920560801120403456000000000000000000000000000000000011204034560000000000000000000000000000000000)
 (.leaf 11204034560000000000000000000000000000000000112040345600000000000000000000000000000000001120403456000000000000000000000000000000000011204034560000000000000000000000000000000000112040345600000000000000000000000000000000001120403456000000000000000000000000000000000011204034560000000000000000000000000000000000111122841600000000000000000000000000000000001120403456000000000000000000000000000000000011156848640000000000000000000010632374440000112040345600000000000000000000000000000000001120403456000000000000000000000000000000608111204034560000000000000000000000000000006082112040345600000000000000000000000000000060831120403456000000000000000000000000000000608411204034560000000000000000000000000000000000))
 (.node 1 (.leaf 11204034560000000000000000000010724655920000112040345600000000000000000000000000000000001116078080105282721210784784520000000000000011204034561092520071101688719400000000000000112040345600000000000000000000000000000000001120403456000000000000000000000000000000000011204034560000000000000000000000000000000000112040345600000000000000000000000000000000001120403456106337546700000000000000000000000011204034561084323936000000000000000000000000112040345600000000000000000000000000000000001120403456000000000000000000000000000000000011204034560000000000000000000010445757940000112040345600000000000000000000000000000000001120403456000000000000000000000000000000000011204034560000000000000000000000000000000000)
 (.leaf 11204034560000000000000000000000000000000000112040345600000000000000000000000000000000001120403456000000000000000000000000000000000011204034560000000000000000000000000000000000112040345611096493101043737451104993676900001118175232000000000000000000001069328208000011204034561025503704000000000000000000006085111634022400000000000000000000105991610200001120403456000000000000000000001052528607608611204034560000000000000000000000000000000000112040345600000000000000000000000000000000001120403456000000000000000000000000000000000011204034560000000000000000000000000000000000112040345600000000000000000000000000000000001120403456000000000000000000000000000000000011204034560000000000000000000000000000000000)))
 (.node 2 (.node 1 (.leaf 11204034560000000000000000000000000000000000112040345600000000000000000000000000000000001112014848000000000000000000000000000000000011204034560000000000000000000000000000000000112040345600000000000000000000000000000000001120403456000000000000000000000000000000000011204034560000000000000000000000000000000000112040345600000000000000000000000000000000001116078080000000000010251147410000000000000011204034560000000000000000000000000000000000112040345600000000000000000000000000000000001120403456103028937100000000000000000000000011204034560000000000000000000010258346486087112040345600000000000000000000103831413860881120403456000000000000000000000000000000608911204034560000000000000000000010757137760000)
 (.leaf 11204034560000000000000000000010418610150000111935488010500718901050381228106404330460901120403456000000000000000000000000000000000011204034560000000000000000000000000000000000112040345600000000000000000000000000000000001120403456104916098800000000000000000000000011204034560000000000000000000000000000000000112040345610905681391063935541103436691700001120403456000000000000000000000000000000000011204034560000000000000000000000000000000000112040345600000000000000000000000000000000001120403456000000000000000000000000000000000011204034560000000000000000000000000000000000112040345600000000001097282670104811991360911120403456000000000010911426281043150874609211204034560000000000000000000000000000000000))
 (.node 1 (.leaf 11204034560000000000000000000010374463456093111791308800000000000000000000000000000000001120403456000000000000000000000000000000000011204034560000000000000000000000000000006094112040345600000000000000000000000000000060951120403456000000000000000000000000000000000011204034560000000000000000000000000000000000112040345610740004660000000000108531366000001120403456000000000000000000001066948607000011204034561069029993000000000000000000000000112040345600000000000000000000000000000000001120403456000000000000000000000000000000000011204034561073918476000000000000000000000000112040345610739925720000000000000000000000001120403456109074807600000000000000000000000011204034560000000000000000000000000000000000)
 (.leaf 11204034560000000000000000000000000000000000112040345600000000000000000000000000000000001120403456000000000000000000000000000000000011204034560000000000000000000000000000000000112040345600000000000000000000000000000000001120403456000000000000000000000000000000000011204034560000000000000000000000000000000000112040345600000000000000000000000000000000001120403456000000000000000000000000000000000011204034560000000000000000000000000000000000112040345600000000000000000000000000000000001120403456000000000000000000000000000000000011204034560000000000000000000000000000000000112040345600000000001097748552102578170860961100480512000000000000000000001049615244000011204034560000000000000000000000000000006097)))))))
 (.node 32 (.node 16 (.node 8 (.node 4 (.node 2 (.node 1 (.leaf 11204034561055028920000000000010465548110000112040345600000000000000000000106611571000001120403456000000000000000000001015629383000011204034560000000000103540924100000000000000112040345600000000001022578026102820204800001120403456000000000000000000000000000000000011204034560000000000000000000000000000000000112040345600000000000000000000000000000000001120403456000000000000000000000000000000000011083448320000000000000000000000000000000000112040345600000000000000000000000000000000001120403456000000000000000000000000000000000011204034560000000000000000000000000000000000112040345600000000000000000000000000000000001120403456000000000000000000001046400287609811204034560000000000000000000000000000000000)
 (.leaf 11204034561061190235000000000000000000000000112040345600000000000000000000000000000000001120403456000000000000000000001019489103000011204034561028465084000000000000000000000000112040345600000000000000000000000000000000001120403456000000000000000000000000000000609911204034561084637581000000000000000000000000112040345600000000000000000000000000000000001120403456000000000000000000000000000000000011204034560000000000000000000000000000000000112040345600000000000000000000000000000000001120403456000000000000000000000000000000000011204034560000000000000000000000000000000000112040345600000000000000000000000000000000001120403456000000000000000000000000000000000011204034560000000000000000000000000000000000))
 (.node 1 (.leaf 10936647680000000000000000000000000000000000111411200010717806430000000000107673913700001119617024110477305000000000001058600784000011204034560000000000000000000000000000000000112040345600000000000000000000103805479761001120403456000000000000000000000000000000610111204034561045414166000000000010600576340000112040345610822331271070417419000000000061021120403456000000000000000000000000000000000011204034560000000000000000000000000000000000112040345600000000000000000000000000000000001120403456000000000000000000000000000000000011204034560000000000000000000000000000000000112040345610598629390000000000000000000000001120403456000000000000000000000000000000000011204034560000000000000000000000000000000000)
 (.leaf 11204034560000000000000000000000000000000000112040345600000000000000000000000000000000001120403456000000000000000000000000000000000011204034560000000000000000000000000000000000112040345600000000000000000000102060236700001120403456000000000000000000000000000000000011204034560000000000000000000010417202470000112040345600000000000000000000000000000000001120403456000000000010621152131033272637000011204034560000000000000000000010438950810000112040345611067430020000000000000000000000001120403456000000000000000000000000000000000011204034560000000000000000000000000000000000112040345600000000000000000000000000000000001120403456000000000000000000000000000000000011204034560000000000000000000000000000000000)))
 (.node 2 (.node 1 (.leaf 11204034560000000000107447750500000000000000112040345600000000000000000000000000000000001120403456000000000000000000000000000000000011171266560000000000000000000010327716290000110362624011026535921066884137104673713900001120403456000000000000000000001061035009000011193548801061781145104876390510726278640000112040345600000000000000000000103139847800001120403456108935033310420463081030826595610311204034560000000000000000000010485926936104112040345600000000000000000000000000000000001117519872000000000010789830261043122592000011204034560000000000000000000000000000000000112040345600000000000000000000000000000000001120403456000000000000000000000000000000000011204034561090596865000000000000000000000000)
 (.leaf 11204034560000000000000000000000000000000000112040345600000000000000000000000000000000001120403456000000000000000000000000000000000011091312640000000000000000000000000000000000112040345600000000000000000000000000000000001103626240000000000000000000001037627177000011204034560000000000000000000000000000006105112040345600000000000000000000103449100461061120403456000000000000000000000000000000000011204034560000000000000000000000000000000000112040345600000000000000000000103150268200001120403456104120771510216653460000000000000011204034561075810769101941048800000000006107112040345600000000000000000000000000000000001120403456000000000010987067410000000000000011204034560000000000103008079700000000000000))
 (.node 1 (.leaf 11204034560000000000000000000000000000000000112040345600000000000000000000000000000000001120403456000000000000000000000000000000000011204034560000000000000000000000000000000000112040345600000000000000000000000000000000001120403456000000000000000000000000000000000011204034560000000000109302639500000000000000110362624000000000000000000000106222912100001120403456109455380810668556160000000000610811156848640000000000000000000010649133960000112040345600000000000000000000000000000061091120403456000000000000000000000000000000000011204034560000000000000000000000000000000000112040345600000000000000000000000000000000001120403456000000000000000000000000000000000011204034561059868459000000000000000000000000)
 (.leaf 11204034560000000000000000000000000000000000112040345610239789911035395819107770552761101120403456000000000000000000000000000000000011204034560000000000000000000000000000000000112040345600000000000000000000000000000000001120403456000000000000000000000000000000000011204034560000000000000000000000000000000000112040345600000000000000000000000000000000001120403456000000000000000000000000000000000011204034560000000000000000000000000000000000111896166400000000000000000000000000000000001120403456000000000000000000000000000000000011156848640000000000000000000000000000000000112040345600000000001097850788105841678900001090519040000000000000000000000000000000000010905190400000000000000000000010627553490000))))
 (.node 4 (.node 2 (.node 1 (.leaf 11204034560000000000000000000000000000000000112040345610151364580000000000000000000000001120403456000000000000000000001052656330000011204034560000000000000000000000000000000000112040345600000000000000000000000000000000001120403456000000000000000000000000000000000011204034561092113547000000000000000000000000112040345600000000000000000000000000000000001120403456000000000000000000000000000000000011204034560000000000109774236510414506910000111122841600000000001083154052104133748461111120403456000000000000000000000000000000000011204034560000000000000000000000000000000000112040345610925372050000000000000000000000001120403456105711929400000000000000000000611211189616641097591178104240869500000000000000)
 (.leaf 11204034561061709708000000000000000000000000112001024010925682981065429552106242365700001120403456000000000000000000000000000000000011204034560000000000000000000010398154956113112040345600000000001078575340000000000061141120403456000000000010748864500000000000000011204034560000000000000000000000000000000000112040345600000000000000000000000000000000001120403456000000000000000000000000000000000011204034560000000000000000000000000000000000112040345600000000000000000000000000000000001120403456104503862510428516140000000000611511196170240000000000108035624100000000000000109051904000000000000000000000000000000000001116078080104883946900000000001065131932000011204034561093518853108308652400000000000000))
 (.node 1 (.leaf 11204034561048585999105241127200000000000000112040345600000000000000000000102749102800001120403456000000000000000000000000000000000011204034560000000000107709684810308803676116112040345600000000001067801851000000000000001120403456106199485410266179801060091678000011204034561067951294104009344010617110596117112040345610695267920000000000000000000000001120403456000000000010637140821023163858000011204034560000000000000000000000000000000000112040345600000000001076198428000000000000001120403456000000000010829281890000000000000011204034560000000000109663968300000000000000112040345600000000000000000000000000000000001120403456000000000000000000000000000000000011204034560000000000106193401900000000000000)
 (.leaf 11204034560000000000000000000000000000000000112040345600000000000000000000000000000000001090519040000000000010715020660000000000000011204034560000000000109588072410500252136118112040345600000000000000000000000000000000001120403456000000000000000000000000000000000011204034560000000000000000000000000000006119111568486410635947290000000000105801205261201118175232000000000010797874941070946344000011204034561090905479099692901810259868360000112040345610845895501050455048105924210800001120403456000000000010994179901042577269000011204034560000000000000000000000000000000000112040345600000000000000000000000000000000001120403456000000000000000000000000000000000011204034560000000000000000000000000000000000)))
 (.node 2 (.node 1 (.leaf 11204034560000000000000000000000000000006121112040345600000000000000000000104077764561221120403456000000000000000000001051457811000011204034561058469524105927483100000000006123110677196800000000000000000000104795470800001120403456103133761200000000000000000000000011204034561093886318000000000000000000000000112040345610954378141058034994000000000000001120403456000000000000000000000000000000612411204034560000000000000000000010169659350000112040345610943304101031771940104237068700001120403456110845634810653196621034223890000011204034561104724063103378520610489668690000112040345600000000000000000000000000000000001120403456000000000000000000000000000000000011204034560000000000000000000000000000000000)
 (.leaf 11204034561030721284000000000000000000000000110755840000000000000000000000106728095300001120403456108817719200000000000000000000612511020533760000000000000000000000000000000000111961702400000000000000000000108014857900001120403456000000000000000000000000000000000011204034561090935212000000000000000000000000112040345600000000000000000000000000000000001120403456000000000000000000000000000000000011204034561071353092108250498300000000006126112040345610907413441067096369000000000000001120403456000000000000000000000000000000000011204034560000000000000000000000000000000000112040345600000000000000000000000000000000001120403456000000000009969290180000000000612711204034561084055123106813571710260819630000))
 (.node 1 (.leaf 11204034561088736431106602011000000000000000112040345611200311470000000000000000000000001120403456000000000000000000000000000000000011204034560000000000000000000000000000000000112040345600000000000000000000000000000000001120403456000000000000000000000000000000000010905190400000000000000000000000000000000000111896166400000000000000000000000000000000001120403456000000000000000000001030865112612811204034560000000000000000000000000000000000112040345600000000000000000000000000000000001120403456108235164410610666370000000000000011204034561117458495000000000000000000000000112040345600000000000000000000000000000000001120403456000000000000000000000000000000000011204034560000000000000000000000000000000000)
 (.leaf 11204034560000000000000000000000000000000000109051904000000000000000000000000000000000001096810496000000000000000000000000000000000011104419840000000000000000000000000000000000112040345600000000000000000000000000000000001096810496000000000000000000001060330510000011204034560000000000000000000000000000000000112040345610973528330000000000102916456800001120403456000000000000000000000000000000000011120148480000000000000000000010257987986129111568486400000000000000000000107226216400001120403456000000000000000000000000000000000011204034560000000000000000000010255575140000112040345610820269041042603311000000000061301120403456000000000000000000000000000000000011204034560000000000000000000000000000000000)))))
 (.node 8 (.node 4 (.node 2 (.node 1 (.leaf 11204034561048783803000000000000000000000000112040345610795966661030027110102510845561311120403456107021845810380801740000000000000011204034561070574395109278721510426212330000112040345600000000000000000000000000000000001120403456000000000010905816400000000000000011204034560000000000000000000000000000000000112040345600000000000000000000000000000000001120403456000000000000000000000000000000000011160780801032260761000000000010639444416132112040345600000000000000000000104348241300001120403456000000000000000000000000000000000011204034560000000000000000000000000000000000112040345600000000000000000000103810483700001120403456000000000010450863390000000000000011204034561074402003000000000000000000000000)
 (.leaf 11204034560000000000000000000000000000000000112040345600000000000000000000000000000000001120403456000000000000000000000000000000000011204034561086420853104298583210546008440000112040345611197792270000000000000000000000001120403456111784697000000000000000000000000011204034560000000000000000000000000000000000112040345611082938911107492182000000000000001120403456000000000000000000001030274147000011204034560000000000000000000000000000000000112040345600000000000000000000000000000000001090519040000000000010730833180000000000000011196170241119588345104648220300000000000000112040345600000000000000000000000000000000001120403456109164007800000000000000000000000011204034560000000000000000000000000000000000))
 (.node 1 (.leaf 11204034561026052118108122530100000000000000112040345600000000000000000000000000000000001120403456000000000000000000000000000000000011204034560000000000000000000000000000000000112040345610874112751015330269101690157900001120403456109494919700000000000000000000000011204034561095566709101688719400000000000000112040345611132603731107560707000000000000001120403456000000000000000000000000000000000011204034560000000000000000000000000000000000112040345600000000000000000000000000000000001099431936000000000000000000001037780127613311128012800000000000108820210600000000000000111634022400000000000000000000105602009200001120403456000000000000000000001086941785000011204034561078083038000000000010391216390000)
 (.leaf 11204034561115688467000000000000000000000000112040345611037651800000000000000000000000001120403456103711514800000000000000000000613411204034561089188412109219644700000000000000112040345600000000001045374907000000000000001120403456000000000000000000000000000000000011204034560000000000000000000000000000000000112040345610893712290000000000000000000000001120403456000000000000000000000000000000000011204034561015546628000000000000000000000000112040345600000000001064784468104136337961351120403456106885825310942733621033421452000011204034561088459203107101972100000000000000112040345600000000000000000000000000000000001120403456109463474211067115180000000000000011204034560000000000000000000000000000000000)))
 (.node 2 (.node 1 (.leaf 11036262400000000000108352021510552437250000110362624000000000000000000000106844906900001120403456106518333000000000001022942517000011128012800000000000104200604210487964730000112040345600000000000000000000102759972961361120403456111398593010224706520000000000000011204034561032763138000000000000000000000000111634022411084352401042469093000000000000001120403456000000000010689276021054629191000011204034560000000000000000000000000000000000112040345600000000000000000000000000000000001120403456109525807900000000000000000000000011204034561076364799103724802400000000006137112040345610859391451030027110000000000000001120403456107702095610374225070000000000000011204034560000000000000000000000000000000000)
 (.leaf 11204034560000000000000000000000000000000000112040345600000000001090491777000000000000001120403456000000000000000000000000000000000011204034560000000000000000000000000000000000112040345600000000000000000000000000000000001120403456000000000000000000001041475481613811204034560000000000000000000000000000000000112040345600000000000000000000000000000000001120403456000000000000000000000000000000000011204034560000000000000000000000000000000000111791308811064303371022148529107434922200001120403456106955929800000000001035600816000011204034561020692535000000000000000000000000112040345611201724521067809400000000000000001120010240111680063210446568421065072965000011200102401100725591105380042510678617120000))
 (.node 1 (.leaf 11204034560000000000000000000000000000000000112040345600000000000000000000000000000000001120403456000000000000000000000000000000613911204034560000000000000000000000000000000000112040345610841745260000000000000000000000001120403456106793468410109145060000000000000011204034560000000000000000000000000000000000112040345611011648040000000000000000000000001120403456000000000000000000000000000000000011204034560000000000000000000000000000000000112040345600000000000000000000101581730800001120403456105362228500000000001065764287000011204034561119074694109276052800000000000000112040345600000000000000000000000000000000001120403456000000000000000000000000000000000011204034560000000000000000000000000000000000)
 (.leaf 11204034560000000000000000000009723671310000112040345600000000000000000000000000000000001120403456000000000000000000000000000000614011204034560000000000000000000000000000000000112040345610858092690000000000000000000000001120403456109100748600000000000000000000000011204034561086429952000000000000000000000000112040345600000000001058402415000000000000001120403456000000000010651770550000000000000011204034560000000000000000000000000000000000112040345600000000000000000000000000000000001120403456000000000000000000000000000000000011204034561101694276111077165610376277350000112040345610896200660000000000000000000000001120403456106192264400000000000000000000000011156848641100806501110215131300000000000000))))
 (.node 4 (.node 2 (.node 1 (.leaf 10779361280000000000104211341610068647830000112040345600000000000000000000000000000000001120403456000000000000000000000000000000614111204034560000000000000000000000000000006142112040345600000000000000000000000000000000001120403456000000000000000000000000000000000011204034561068372830106105153800000000000000112040345600000000000000000000000000000000001120403456000000000000000000000000000000000011204034560000000000000000000000000000000000112040345600000000000000000000000000000000001120403456000000000000000000000000000000000011181752320000000000000000000010647269990000112040345611100238501048159925105762940300001120403456000000000000000000000000000000000011204034560000000000000000000000000000000000)
 (.leaf 11204034560000000000109193283510321578790000112040345600000000000000000000000000000000001120403456000000000000000000000000000000000011175198721092448788108398137810705683556143110519910410970810001047804248104710847861441077936128000000000010466499761048145444614511204034561057597226106251618900000000006146112040345600000000000000000000000000000000001120403456000000000000000000000000000000000011204034560000000000108786886900000000000000112040345600000000000000000000000000000000001120403456109825469010547936361067419691000011204034561023662505000000000000000000006147112040345600000000000000000000000000000000001120403456103911163700000000000000000000000010905190400000000000000000000000000000000000))
 (.node 1 (.leaf 11051991041075511879000000000010671173710000112040345610929187401095071538000000000000001120403456107509380300000000000000000000000011185684481111241256110055920810660908030000112040345600000000000000000000000000000000001120403456000000000000000000000000000000000010779361280000000000000000000010333376310000112040345600000000000000000000101939418500001120403456000000000000000000000000000000000011204034561049521061104264357600000000000000112040345600000000000000000000000000000000001120403456000000000000000000000000000000000011204034560000000000106956849200000000000000112040345600000000000000000000000000000000001120403456000000000000000000000000000000000011204034560000000000000000000000000000000000)
 (.leaf 11204034561006616854110163001300000000000000112040345600000000000000000000000000000000001120403456000000000000000000000000000000000011204034560000000000000000000000000000000000111791308810677980090000000000105904271200001120403456000000000000000000000000000000000011204034560000000000000000000010356358710000112040345611039756491075562152000000000000001118175232106088344710947883170000000000614811175198721078282049107854681900000000006149111411200000000000000000000000105504653261501120403456103958918410504550480000000000000011051991041104470940103935524200000000000000112040345600000000000000000000000000000000001120403456000000000000000000000000000000000011204034560000000000105101540700000000000000)))
 (.node 2 (.node 1 (.leaf 11204034561095906522000000000000000000000000112040345600000000001089006784000000000000001120403456108920545710601556340000000000000011204034560000000000000000000000000000000000112040345600000000000000000000000000000000001090519040000000000000000000000000000000000011204034560000000000000000000000000000000000110755840000000000000000000000105708673300001119617024110240502210290607421042729630000011204034560000000000000000000000000000000000111935488010836325610000000000106654727500001120403456000000000010806368401030859438000011204034561099264307109819314800000000000000112040345600000000000000000000000000000000001120403456097946460700000000000000000000000011204034561058373777000000000000000000000000)
 (.leaf 11204034561065077969000000000010239074620000112040345600000000000000000000000000000061511120403456108324860810846350610000000000000011128012801092718836110184025310711414540000112040345610920063000000000000103225019400001120403456000000000000000000000000000000000011204034560000000000106557635300000000000000112040345600000000000000000000000000000000001120403456000000000000000000000000000000000011204034561083605690108798966510366508350000112040345610959532091074306797103325427100001120403456000000000000000000000000000000000011091312641082407797000000000000000000000000112040345610847994081076903071105644025500001120403456106568414710386304660000000000000011204034560000000000105911712500000000000000))
 (.node 1 (.leaf 11204034560000000000000000000000000000000000112040345610806394240000000000000000000000001120403456000000000010965165800000000000000011204034560000000000099951942000000000000000112040345600000000000000000000000000000000001112801280000000000000000000001049105350000011204034561078836465108722672110182730670000112040345600000000000000000000000000000000001120403456104948743900000000001031878085000011204034561116088289104236843010600277140000112040345610741785600000000000000000000000001120403456109309126600000000000000000000000011204034561083713769105491107700000000000000112040345600000000000000000000000000000000001120403456000000000000000000000000000000000011204034560000000000000000000000000000000000)
 (.leaf 11204034560000000000000000000000000000000000112040345600000000000000000000000000000000001120403456000000000000000000000000000000000011204034561105722213102532949010488943730000112040345610764583150000000000000000000000001120403456000000000000000000000000000000000011204034561084790537000000000010467703340000112040345610519352010000000000000000000000001120403456093264248500000000000000000000000011204034561050464074000000000000000000000000112040345610828988811044066284000000000000001120403456108077601200000000000000000000000011204034560000000000104305294000000000000000112040345610791179611079051813000000000000001120403456000000000000000000000000000000000011204034560000000000000000000010356106640000))))))
 (.node 16 (.node 8 (.node 4 (.node 2 (.node 1 (.leaf 11204034560000000000000000000000000000000000112040345600000000000000000000000000000000001120403456105968879200000000001027448605615211204034560000000000000000000000000000000000112040345600000000000000000000000000000000001120403456104146829900000000001055350101000011204034560000000000000000000000000000000000112040345610802303791085197307000000000000001120403456105803668900000000001061788969000011204034560000000000108902460900000000000000112040345600000000000000000000000000000000001120403456000000000000000000000000000000000011175198720000000000107383074310447414850000112001024000000000000000000000106822689400001102053376109542843910306445121051825191000011204034561075759385000000000010164194580000)
 (.leaf 11204034561093782525000000000000000000000000112040345600000000000000000000000000000000001120403456106359008200000000001045847318000011204034560000000000000000000000000000000000112040345610583389980000000000000000000000001120403456000000000000000000000000000000000011163402241112742734107500389010716418620000112040345610751973521049549079000000000000001120403456111300284510546090870000000000000011204034560000000000107427408100000000000000112040345610969244100000000000000000000000001120403456000000000000000000000000000000000011204034560000000000000000000000000000000000112040345600000000001084532090000000000000001118568448000000000000000000001070571966000011200102400000000000000000000010537824340000))
 (.node 1 (.leaf 11204034560000000000000000000000000000006153112040345600000000000000000000000000000000001120403456107138731000000000001060793593000011204034560000000000000000000000000000000000112040345610880762101022094842102492995600001120403456000000000000000000000000000000000011204034560000000000000000000000000000000000112040345600000000000000000000105725585300001120403456000000000000000000001031551040000011204034560000000000000000000000000000000000112040345610646185420000000000000000000000001120403456110025595110539749080000000000000011204034561119496043106364026210709272220000112040345600000000000000000000000000000000001120403456000000000000000000000000000000000011204034560000000000000000000000000000000000)
 (.leaf 11204034560000000000107400900100000000000000112040345600000000000000000000000000000000001120403456106038576800000000000000000000000011189616641092824309109656764600000000000000112040345600000000000000000000000000000000001120403456106326517400000000000000000000000011204034560000000000000000000000000000000000112040345610548832940000000000104480743800001120403456000000000000000000001066156829000011204034560000000000000000000000000000000000112040345600000000000000000000000000000000001120403456103639856000000000000000000000000011204034560000000000000000000000000000000000109051904000000000000000000000000000000000001120403456111465365010336107230000000000000011204034561119010597102600057810618274390000)))
 (.node 2 (.node 1 (.leaf 11204034561088021573106619962700000000000000112040345610792458671057410882000000000000001106771968000000000000000000001050356599000011200102401108372823103467104300000000000000112040345610747171630000000000000000000000001120403456106650727000000000001037196923000011204034561050834616000000000000000000000000112040345610788014170000000000107290745500001120403456000000000000000000000000000000000011204034561069159144000000000000000000000000112040345600000000000000000000000000000000001120403456108702963500000000000000000000000011204034561039823259000000000000000000000000112040345610654470511065606552102152266900001120403456105364664510653230170000000000615411204034560000000000000000000000000000000000)
 (.leaf 11204034561084867941102128953610438885550000112040345610877652071040838348105327049600001120403456106901976800000000001066251739000011204034560000000000000000000000000000000000112040345610638920550000000000000000000000001120403456108627402110761573240000000000000011204034561097619937110505492500000000000000112040345600000000000000000000000000000000001120403456107384539800000000000000000000000011204034560000000000000000000000000000000000112040345610615857240000000000000000000000001120403456099216590000000000001068774384000011204034560000000000000000000000000000000000112040345610657506350000000000000000000000001120403456000000000000000000001055210527000011181752321072806947000000000010559068330000))
 (.node 1 (.leaf 11204034560000000000000000000000000000000000112040345600000000000000000000000000000000001120403456109639150110305371370000000000000011204034561084233469105262937510570947920000112040345610835737951065927836101020221700001120403456000000000000000000000000000000000011204034561093959245104254291300000000006155112040345611008302371099815243000000000000001120403456000000000000000000000000000000000011204034560000000000000000000000000000000000111817523200000000000000000000105106855600001120403456000000000000000000000000000000000011204034561075174858107007851900000000000000112040345600000000000000000000000000000000001120403456000000000000000000000000000000000011204034560000000000000000000000000000000000)
 (.leaf 11204034560000000000000000000000000000000000112040345610826460341104888044107484316700001120403456111405776210218264071021710584000011204034561081019801000000000000000000000000112040345610721936231041636943104461873161561120403456000000000010916504540000000000000011204034561066951405000000000000000000000000112040345600000000000000000000000000000000001120403456107420789100000000000000000000000011204034560000000000000000000000000000000000112040345610771861610000000000000000000000001120403456106884631600000000000000000000000011204034561060030929000000000000000000000000112040345610795792130000000000000000000000001120403456000000000000000000000000000000000011204034561025262112000000000000000000000000))))
 (.node 4 (.node 2 (.node 1 (.leaf 11204034561073113198106932354400000000006157112040345610800962911105767694107795751400001120403456000000000000000000000000000000615811204034560000000000110371086000000000000000112040345600000000000000000000000000000000001108344832104976443100000000001032675281000011204034560000000000000000000010437378170000112040345600000000000000000000103150070500001120403456109966845200000000000000000000000011204034560000000000000000000000000000000000112040345600000000000000000000000000000061591120403456000000000000000000000000000000000011204034561095785077000000000000000000000000112040345610446907990000000000000000000000001120403456101946095410304834500000000000616011204034560000000000000000000000000000000000)
 (.leaf 11204034560000000000000000000000000000000000112040345600000000000000000000000000000000001120403456106283804300000000001027299499000011204034560000000000000000000010604997320000112040345600000000000000000000103602844900001120403456000000000000000000001041509614616111204034561083564616000000000000000000000000112040345610763447130000000000000000000000001120403456105127216600000000000000000000000011204034561098113277000000000010246861720000112040345610498358680000000000000000000000001120403456105137222500000000000000000000000011204034561031468072000000000000000000000000112040345610608111541077150954105586012361621120403456000000000000000000000000000000000011204034560000000000109451034000000000000000))
 (.node 1 (.leaf 11200102401052991260000000000000000000000000112040345610705578360000000000103793138800001120403456102560409900000000001064069068000011204034561042578011000000000010493096990000112040345600000000001023745720000000000000001106771968000000000010787506620000000000000011204034560000000000000000000000000000000000112040345610915413171038415718000000000000001120403456104848151100000000001044595414000011204034561097682699104129468810482278070000112040345611178092051071258796107630943561631120403456108635754400000000000000000000000011204034561050754253000000000000000000000000112040345610802870521065399353000000000000001120403456000000000000000000000000000000616411204034561097917812105303538410850170906165)
 (.leaf 11204034560000000000102610795200000000000000112040345600000000001101670069000000000000001120403456000000000010926180790000000000000011204034561068166428000000000000000000000000112040345610795665710000000000105796009800001120403456000000000000000000001037303465000011204034561016428707000000000010386571850000110834483200000000001063262775000000000000001112801280000000000000000000000000000000000011204034560000000000000000000000000000000000112040345610998140760000000000000000000000001120403456105912366800000000000000000000000011204034561093588492104252949110449423170000112040345610508974970000000000000000000000001120403456108783333510321074850000000000000011004805120000000000000000000010742670240000)))
 (.node 2 (.node 1 (.leaf 11204034561092144772000000000000000000006166112040345600000000000000000000000000000000001120403456107628549310448850120000000000000011204034561065143232106035696110574966800000112040345610655275061027933313000000000061671120403456000000000000000000000000000000000011204034560000000000108821552800000000000000111935488000000000000000000000104878808200001108344832000000000000000000000000000000000010994319360000000000000000000010573075490000112040345611178925430000000000000000000000001120403456110544539200000000000000000000000011204034561084729086103238934200000000006168112040345611128994361072694926107755801561691120403456109341869410517066291057661203617011204034560000000000000000000000000000000000)
 (.leaf 11204034560000000000000000000000000000000000112040345600000000000000000000000000000000001111228416000000000010892930451054639997000011204034560000000000000000000000000000000000112040345600000000000000000000000000000000001120403456000000000000000000000000000000000011204034560000000000000000000000000000000000112040345600000000000000000000000000000000001077936128000000000000000000001029464841000011204034560000000000000000000000000000000000112040345611204034560000000000000000000000001120403456110033467600000000000000000000000011204034560000000000000000000000000000000000112040345600000000000000000000000000000000001120403456000000000000000000000000000000000011204034561111780082000000000000000000000000))
 (.node 1 (.leaf 11204034561105350451101284724110495784726171112040345600000000000000000000000000000000001120403456105199308300000000000000000000000011204034561105444301000000000000000000000000112040345600000000001063328206000000000000001120403456000000000010902478780000000000000011204034561067771526106053983310625758456172112040345600000000000000000000000000000000001120403456111355757710365232481046118272000011204034561064442297103217459410610985010000111634022400000000000000000000000000000000001120403456000000000010960702010000000000000011204034561089923048000000000000000000000000112040345600000000000000000000000000000000001120403456000000000000000000000000000000000011204034561092484759000000000000000000000000)
 (.leaf 11204034561107934899000000000000000000000000111935488000000000000000000000105337040400001120403456000000000000000000000000000000000011204034560987638467000000000000000000000000112040345610216465550000000000000000000000001120403456108232088710631554011030363024000011204034560000000000000000000000000000000000112040345600000000000000000000000000000000001120403456000000000000000000000000000000000011204034561109979193101973261010254496860000112040345600000000000000000000000000000000001120403456000000000000000000001035385534000011204034561066833294000000000010595936990000112040345600000000000000000000000000000000001120403456000000000000000000000000000000000011204034560000000000000000000000000000000000)))))
 (.node 8 (.node 4 (.node 2 (.node 1 (.leaf 11204034560000000000000000000010284363940000112040345600000000000000000000000000000000001120403456109700466310814111090000000000000011204034561070574671103275173000000000000000112040345611116178231043234134105447232300001120010240000000000010418449811031278660000011204034561117189253103208064110419427450000112040345610990638270000000000000000000000001120403456000000000000000000000000000000000011204034560000000000000000000000000000000000112040345611037489071035771629105608453261731120403456105072012811078009091051766750000011163402241080040834106719619310762664280000112040345610384009540000000000000000000000001120403456000000000000000000000000000000000011204034561065574977000000000000000000000000)
 (.leaf 11160780801060561744109027870600000000000000109051904000000000001074858767000000000000001116340224107827993910849934640000000000000011204034561108547843106314533410547735790000112040345610966897140000000000000000000000001120403456000000000000000000000000000000000011204034560000000000000000000000000000000000112040345611019975640000000000000000000000001120403456000000000000000000000000000000000011204034561074764429000000000010576575870000112040345600000000000000000000000000000000001120403456110763351800000000000000000000000011167334400000000000110380397410568308250000112040345600000000000000000000107286009500001120403456000000000010703058500000000000000011204034560000000000105962211910087549680000))
 (.node 1 (.leaf 11204034561089893101101005551200000000000000112040345610583204250000000000000000000000001120403456000000000000000000000000000000000011204034561090798731000000000000000000000000112040345610974038250000000000000000000000001120403456107783100200000000000000000000000011204034561069951381000000000000000000000000112040345600000000000000000000000000000000001120403456111175964600000000000000000000000011196170240000000000000000000010665664770000112040345610169033011064524422000000000000001120403456000000000010810382350000000000000011204034560000000000000000000000000000000000112040345600000000001078387016101934572300001120010240000000000000000000001045152351617411204034561120284494105246148210576660910000)
 (.leaf 11189616640000000000000000000010323310820000112040345600000000000000000000000000000000001120403456000000000000000000000000000000000011204034560000000000000000000000000000000000112040345610664415790000000000000000000000001120403456000000000000000000000000000000000011204034561104684736000000000000000000000000112040345611057499830000000000103347751600001120403456110556619800000000001032022753000011204034560000000000104697209800000000000000112040345610402631581062232654000000000000001120403456100464116900000000000000000000000011204034561064026289000000000010195651820000112040345610643465331014672602101582322700001120403456106017613600000000000000000000000011193548801108529290103335571010442915720000)))
 (.node 2 (.node 1 (.leaf 11204034560000000000000000000000000000006175112040345610519695610000000000104042328000001120403456107389814600000000000000000000000011204034561073012871000000000000000000000000112040345600000000000000000000000000000000001120403456110619111500000000001045521507000011204034561100669018000000000000000000000000112040345611079776611060244554000000000061761120403456000000000010592647640000000000000011204034560000000000000000000000000000000000112040345600000000000000000000000000000000001120403456000000000000000000000000000000000011204034560000000000000000000000000000006177111712665600000000000000000000000000000000001120403456108218137400000000000000000000000011204034560000000000000000000000000000000000)
 (.leaf 11204034561025080113000000000000000000000000112040345600000000000000000000000000000000001120403456000000000000000000000000000000000011204034560000000000000000000000000000000000112040345600000000000000000000000000000000001120403456000000000000000000000000000000000011204034560000000000000000000000000000000000112040345611080158620000000000000000000000001120403456110925018500000000000000000000000011204034560000000000000000000000000000006178112040345600000000000000000000000000000000001120403456107138185710711463890000000000000011091312640000000000000000000010408334400000110913126400000000000000000000104391416800001118961664000000000000000000001038924001000011204034561065413245108257125310574900300000))
 (.node 1 (.leaf 11204034560000000000000000000010763951630000112040345611029523550000000000000000000000001120403456106179037300000000001037744622000011204034560000000000000000000000000000000000112040345611077216540000000000000000000000001120403456110491930910255173941032084233000011204034560000000000000000000010299519240000112040345600000000001067462951000000000000001120403456000000000000000000000000000000000011204034560000000000000000000000000000000000112040345600000000001082990055000000000000001120403456000000000000000000000000000000000011204034560000000000000000000000000000000000112040345600000000001057449470100827611000001120403456109417428510331275401066516198617911204034561107637721000000000000000000000000)
 (.leaf 10863247360000000000000000000000000000000000110677196800000000000000000000000000000000001115684864102682038000000000001054216617000011204034560000000000000000000010247589760000112040345600000000000000000000103502394561801118961664000000000010663673991066579901000011204034561075847956104618692410529182536181112040345600000000000000000000000000000000001120403456109028681610834388450000000000618211204034560000000000000000000010352733810000112040345600000000000000000000103390664400001090519040000000000000000000000000000000000011204034560000000000000000000010390712680000112040345600000000000000000000000000000000001120403456104916239700000000000000000000000011204034560000000000000000000000000000000000))))
 (.node 4 (.node 2 (.node 1 (.leaf 11204034560000000000000000000000000000000000112040345609326424850000000000000000000000001120403456000000000000000000000000000000000011204034560000000000000000000000000000000000112040345600000000000000000000000000000000001120403456000000000000000000000000000000618311204034560000000000000000000000000000000000112040345600000000000000000000000000000000001120403456000000000000000000001045855197000011204034561084562497000000000000000000000000112040345610884613750000000000000000000000001120403456105877698410600281281040849986000010968104961096662714000000000010227048610000111935488010856042781110837664102194520900001120403456000000000000000000000000000000000011204034561069479866000000000000000000000000)
 (.leaf 11204034560000000000000000000000000000000000112040345600000000000000000000000000000000001120403456000000000000000000000000000000000011204034560000000000000000000010255199640000112040345600000000000000000000000000000000001120403456000000000000000000000000000000000011204034560000000000000000000000000000000000112040345611041547561069930879000000000000001120403456111695603100000000000000000000000011204034560000000000000000000000000000006184112040345600000000000000000000000000000000001120403456000000000000000000000000000000000011204034561033891641000000000010682954760000112040345600000000000000000000103610811800001120403456000000000000000000000000000000000011204034561065506543000000000000000000000000))
 (.node 1 (.leaf 11204034561096375514000000000000000000000000112040345610996340661043099917106336020300001120403456000000000000000000000000000000000011204034560000000000000000000000000000000000112040345600000000000000000000000000000000001120403456105917205310605247330000000000000011204034561065355397106648400010103332020000112040345600000000001070143111000000000000001120403456000000000000000000000000000000000011204034560000000000000000000000000000006185111935488000000000000000000000105899137800001113587712000000000000000000000000000000000011204034560000000000000000000000000000000000112040345600000000000000000000000000000000001120403456000000000000000000000000000000000011204034560000000000000000000000000000000000)
 (.leaf 11204034561077256131000000000000000000000000112040345610954451590000000000102183875900001120403456000000000000000000000000000000000011204034561071781641107889201010206531076186112040345600000000001073362659000000000000001120403456000000000000000000000000000000000010968104960000000000000000000000000000000000112040345611002254390000000000000000000000001120403456105356104800000000000000000000000011204034560000000000000000000000000000000000112040345600000000000000000000000000000000001120403456000000000010929063330000000000000011020533760000000000000000000010009024140000112040345600000000000000000000104873651800001120403456000000000000000000001048881714000011204034560000000000000000000010325794660000)))
 (.node 2 (.node 1 (.leaf 11204034560000000000100951864100000000000000112040345600000000001055790203000000000000001120403456108457582000000000001021833533000011204034561104370540107899686710649518726187112040345600000000000000000000105118080500001120403456106614293600000000000000000000000011204034560000000000000000000000000000000000112040345610805002780000000000000000000000001120403456000000000000000000000000000000000011204034561120268930105234416310597168480000112040345611192112711056276742107387520100001120403456110746078400000000000000000000000011204034560000000000101456522800000000000000112040345600000000000000000000000000000000001106771968000000000000000000000000000000000011204034560000000000109450226610504407050000)
 (.leaf 11204034561099383416101688719410536524780000112040345600000000000000000000000000000000001120403456000000000000000000000000000000000010905190400000000000000000000000000000000000112040345600000000000000000000000000000000001120403456105711109000000000000000000000000011204034561110610619000000000000000000000000112040345611097576000000000000000000000000001120403456000000000000000000000000000000000011204034560000000000000000000000000000000000111044198400000000000000000000104636109400001120403456000000000000000000001025893958000011204034560000000000000000000000000000000000110913126410699271880000000000104859008300001109131264000000000000000000001058934092000011112284160000000000000000000010685838420000))
 (.node 1 (.leaf 11193548800000000000000000000010298212700000111896166400000000000000000000104856347700001112801280000000000000000000001041617708000011204034560000000000000000000000000000000000112040345600000000000000000000000000000000001120403456000000000000000000000000000000000011204034560000000000000000000000000000000000112040345611008722980000000000104763058700001120403456109500746700000000000000000000000011204034561102216999000000000000000000000000112040345610920499370000000000000000000000001116078080000000000000000000001062298423618811204034560000000000000000000000000000000000112040345600000000000000000000000000000000001120403456000000000000000000001051167812000011204034560000000000000000000000000000000000)
 (.leaf 11156848640000000000000000000000000000000000112040345600000000000000000000104667150300001120403456000000000010706481050000000000000011204034561072359105106707959200000000000000112040345600000000000000000000000000000000001120403456000000000000000000000000000000000011204034560000000000000000000000000000000000112040345610740095970000000000100954210200001120403456000000000000000000000000000000000011204034560000000000107914954000000000000000112040345600000000001088440972000000000000001120403456000000000000000000000000000000000011204034561054718307108984375700000000000000112040345600000000000000000000000000000000001111228416107007140510094112671019872591000011204034560000000000000000000000000000000000))))))))
 (.node 64 (.node 32 (.node 16 (.node 8 (.node 4 (.node 2 (.node 1 (.leaf 11120148480000000000000000000000000000000000112040345600000000000000000000105369328200001120403456000000000000000000000000000000000011204034561088354637108061586900000000000000112040345610560815561081153159105288306100001120403456000000000000000000001016615304000011204034560000000000000000000000000000000000112040345611140131041031208226104624461500001120403456000000000000000000000000000000000011204034560000000000000000000000000000000000109051904009793271690000000000106601914600001120403456000000000000000000000000000000000011204034560000000000000000000000000000000000112040345600000000000000000000000000000000001120403456108061179200000000000000000000000011204034560000000000106963895600000000000000)
 (.leaf 11204034560000000000107287612000000000000000112040345610959457291077031836000000000000001120403456000000000010782280520000000000618911204034561058138812000000000000000000000000112040345600000000000000000000000000000000001120403456000000000000000000001060341749000011204034560000000000000000000000000000000000112040345600000000001082951048105822946600001120403456110225074100000000000000000000000011204034560000000000000000000000000000000000112040345600000000000000000000000000000000001120403456107569360600000000000000000000000011204034561066176751110802496400000000000000112040345600000000000000000000000000000061901120403456104187913900000000000000000000000011204034560000000000000000000000000000000000))
 (.node 1 (.leaf 11075584001052496198000000000010521933530000110834483200000000000000000000000000000000001120403456000000000000000000000000000000000011204034560000000000000000000000000000000000111044198400000000000000000000000000000000001110441984000000000000000000000000000000000011204034560000000000000000000000000000000000112040345610764343951060392193107578266900001120403456000000000000000000000000000000000011204034560000000000000000000000000000000000112040345600000000000000000000000000000000001120403456111631249109977880121027956855000011204034560000000000000000000000000000006191112040345610427910150000000000103672664300001120403456108519082100000000000000000000000011204034560000000000000000000000000000006192)
 (.leaf 11204034560000000000000000000000000000000000112040345600000000000000000000000000000000001120403456000000000000000000000000000000000011148984321085153256000000000010192010210000111634022410790644920000000000000000000000001120403456000000000000000000000000000000000011204034560000000000000000000000000000000000112040345600000000000000000000104139302700001120403456000000000000000000001053932890619311204034560000000000000000000000000000000000112040345610831554911073829485106052749800001120403456000000000000000000001050366589000011204034560000000000000000000000000000000000112040345611173793461033557036103963740761941120403456111728905710076932801025022491000011204034560000000000000000000000000000000000)))
 (.node 2 (.node 1 (.leaf 11204034560000000000000000000000000000000000112040345600000000000000000000000000000000001120403456106082155600000000001034606696000011204034560000000000000000000000000000000000112040345600000000001092654150105073211500001120403456000000000000000000000000000000000011204034560000000000000000000000000000000000112040345600000000001074966561000000000000001120403456108995504000000000000000000000000011204034560000000000108253056900000000000000111935488000000000000000000000105816142700001120403456000000000000000000000000000000000011204034560000000000000000000000000000000000112040345600000000000000000000000000000000001120403456000000000000000000000000000000000011204034560000000000000000000000000000000000)
 (.leaf 11204034560000000000000000000000000000000000112040345600000000000000000000000000000000001099431936000000000000000000000000000000000011204034560000000000000000000000000000000000112040345600000000000000000000000000000000001120403456000000000000000000001032361787000011204034561082524661000000000000000000000000112040345600000000000000000000000000000000001120403456000000000000000000000000000000000011204034560000000000000000000000000000000000112040345600000000000000000000102784754700001120403456102954875800000000000000000000619511204034561082042951000000000000000000000000112040345600000000001067030099105135839700001120403456000000000000000000000000000000000011204034560000000000000000000000000000000000))
 (.node 1 (.leaf 11204034561098742317106336176010703857380000112040345610556942040000000000000000000000001120403456000000000000000000000000000000000011204034560000000000000000000000000000000000112040345600000000000000000000000000000000001120403456000000000000000000000000000000000011204034561016835655000000000010463969690000112040345600000000000000000000000000000000001120403456000000000000000000000000000000619611204034560000000000000000000000000000000000112040345600000000000000000000000000000000001120403456000000000000000000001019043667000011204034560000000000110171819910257710500000112040345600000000000000000000000000000000001120403456000000000000000000000000000000000011204034561055059387000000000000000000000000)
 (.leaf 11204034560000000000000000000000000000000000112040345600000000000000000000000000000000001120403456000000000000000000000000000000000011181752321062204183108306848810416256150000111856844800000000000000000000000000000000001120403456000000000000000000000000000000000011204034560000000000000000000000000000000000112040345600000000000000000000103805371200001118568448106021645200000000000000000000000011204034560000000000000000000000000000000000111673344000000000000000000000000000000000001120403456000000000000000000000000000000000011204034560000000000000000000010492344570000112040345600000000000000000000104067919000001120403456112040345600000000000000000000000011204034560000000000000000000000000000000000))))
 (.node 4 (.node 2 (.node 1 (.leaf 11204034560000000000000000000000000000000000112040345600000000000000000000102445387761971120403456000000000000000000000000000000000011204034560000000000000000000000000000000000112040345600000000000000000000103442687000001120403456105095742510586272300000000000000011020533760000000000000000000010500883330000112040345600000000000000000000000000000000001114898432000000000000000000000000000000000011204034560000000000000000000000000000000000112040345600000000000000000000000000000000001120403456000000000000000000001043895870000011204034560000000000000000000000000000000000112040345610799284730000000000000000000061981120403456000000000000000000000000000000000011204034560000000000000000000010475810470000)
 (.leaf 11204034561085535370000000000000000000000000112040345600000000000000000000103322846261991116078080000000000000000000000000000000000011204034560000000000000000000000000000000000112040345610991609240000000000000000000000001120403456000000000000000000000000000000620011204034561060926816000000000010402142860000111961702400000000001076159840103391325400001120403456000000000000000000000000000000000011204034560000000000000000000000000000000000112040345600000000000000000000000000000000001120403456000000000000000000000000000000000011204034560000000000000000000000000000000000112040345600000000000000000000102645022400001120403456000000000010585248890000000000000011204034560000000000106932606100000000000000))
 (.node 1 (.leaf 11204034561120143349000000000000000000000000112040345600000000000000000000000000000062011120403456000000000000000000000000000000000011148984320000000000000000000010632964910000112040345600000000000000000000000000000000001120403456000000000000000000000000000000000011204034560000000000000000000000000000000000112040345600000000000000000000000000000062021120403456000000000000000000000000000000000011204034561020228679110051301810703517090000111961702400000000000000000000105835111600001120403456000000000000000000000000000000000011204034560000000000000000000000000000000000112040345600000000000000000000000000000000001120403456000000000000000000000000000000000011204034560000000000000000000000000000000000)
 (.leaf 11204034560000000000000000000000000000000000112040345600000000000000000000000000000000001120403456000000000000000000000000000000000011204034560000000000000000000000000000000000112040345600000000000000000000000000000000001120403456000000000000000000000000000000620311204034560000000000000000000000000000000000112040345600000000000000000000106458589500001120403456000000000000000000000000000000000011204034561078483350110517844700000000000000112040345600000000000000000000000000000000001120403456000000000000000000000000000000000011204034560000000000104054306900000000000000112040345600000000000000000000000000000000001120403456000000000000000000000000000000000011204034560000000000000000000000000000000000)))
 (.node 2 (.node 1 (.leaf 11204034560000000000000000000000000000000000112040345600000000000000000000000000000000001120403456000000000000000000000000000000000011204034560000000000000000000000000000000000112040345600000000000000000000000000000000001116078080000000000000000000000000000000000011204034560000000000109533305210370718580000112040345600000000000000000000000000000000001120403456112040345600000000000000000000000011204034560000000000000000000000000000000000112040345600000000000000000000000000000000001120403456000000000000000000000000000000000011204034561016881289106571728200000000000000112040345600000000001078788411000000000000001120403456000000000000000000000000000000000011204034561077756972000000000000000000000000)
 (.leaf 11204034560000000000108063138800000000000000112040345600000000000000000000000000000000001120403456000000000000000000001054600928620411204034560000000000000000000000000000006205112040345610972174481033261757000000000062061120403456101687377300000000001067678782000011083448320000000000107766014310740892440000112040345600000000000000000000000000000000001120403456000000000000000000000000000000000011204034560000000000000000000000000000000000112040345610498561020000000000000000000000001120403456000000000000000000000000000000000011141120000000000000000000000000000000006207111358771200000000000000000000000000000000001120403456000000000000000000000000000000000011204034560000000000000000000010430968680000))
 (.node 1 (.leaf 11204034560000000000000000000000000000000000112040345600000000000000000000000000000000001120403456000000000000000000000000000000000011204034560000000000000000000000000000006208112040345610611329580000000000000000000000001120403456000000000000000000000000000000000011204034560000000000000000000000000000000000112040345600000000000000000000000000000000001120403456000000000000000000000000000000000011204034560000000000000000000010306789346209112040345600000000000000000000000000000000001120403456000000000000000000000000000000000011204034560000000000000000000000000000000000112040345600000000000000000000103637802200001120403456000000000000000000000000000000000011204034560000000000000000000010225847100000)
 (.leaf 11204034560000000000000000000010569609110000112040345611175198740000000000000000000000001120403456000000000000000000000000000000000011204034560000000000000000000000000000000000112040345600000000000000000000102813172000001120403456000000000000000000000000000000621011204034560000000000000000000010588865730000112040345600000000000000000000105309239200001120403456101689095300000000000000000000000011204034560000000000000000000000000000000000112040345600000000000000000000000000000000001120403456000000000010900146750000000000000011204034560000000000000000000000000000000000112040345600000000000000000000000000000000001120403456000000000000000000000000000000000011204034560000000000000000000000000000000000)))))
 (.node 8 (.node 4 (.node 2 (.node 1 (.leaf 11204034560000000000000000000010379370900000112040345600000000000000000000000000000000001120403456112040345600000000000000000000000011204034561107834119000000000000000000000000112040345600000000000000000000000000000000001120403456000000000000000000000000000000000011204034560000000000000000000000000000006211111201484800000000001047676741105220055400001120403456000000000000000000000000000000621211204034560000000000000000000000000000000000112040345611087659090000000000000000000000001120403456000000000010667507580000000000000011204034560000000000000000000000000000000000111122841600000000000000000000000000000000001120403456000000000000000000000000000000000011204034560000000000000000000000000000000000)
 (.leaf 11204034560000000000000000000000000000000000112040345600000000000000000000000000000000001120403456000000000000000000000000000000000011204034560000000000000000000000000000000000112040345600000000000000000000000000000000001118568448000000000000000000001027193601621311204034560000000000107121014200000000000000112040345600000000000000000000000000000000001120403456000000000000000000000000000000000011204034560000000000000000000000000000000000112040345600000000000000000000000000000000001120403456000000000000000000001025961825621411204034560000000000000000000010104206776215112040345610529031460000000000000000000062161118568448105275537211026246931031966040000011196170240000000000000000000000000000000000))
 (.node 1 (.leaf 11204034560000000000000000000000000000000000112040345600000000000000000000000000000000001120403456000000000000000000000000000000000011204034560000000000000000000000000000000000112040345600000000000000000000000000000000001120403456000000000000000000000000000000000011204034560000000000000000000000000000000000112040345600000000000000000000104919874100001120403456000000000000000000000000000000000011204034560000000000000000000000000000000000112040345600000000000000000000000000000000001120403456000000000000000000000000000000000011204034560000000000000000000000000000006217112001024000000000000000000000105858177000001120403456000000000000000000000000000000000011204034560000000000000000000000000000000000)
 (.leaf 11204034560000000000000000000000000000000000112040345610906088441080666200000000000000001120403456000000000000000000000000000000621811204034560000000000000000000000000000000000112040345600000000000000000000000000000000001120403456000000000000000000000000000000000011104419840000000000000000000000000000000000112040345600000000001089883393000000000000001120403456000000000000000000000000000000000011204034561079131815103213432800000000000000112040345600000000000000000000000000000000001120403456000000000000000000000000000000000011204034560000000000000000000000000000000000112040345600000000000000000000000000000000001120403456000000000000000000000000000000000011204034560000000000000000000000000000000000)))
 (.node 2 (.node 1 (.leaf 11204034560000000000000000000000000000000000112040345600000000000000000000000000000000001120403456000000000000000000000000000000621911204034560000000000000000000000000000000000112040345600000000000000000000000000000000001120403456000000000000000000000000000000000011204034560000000000000000000000000000000000112040345600000000000000000000000000000062201120403456000000000000000000000000000000000011204034560000000000000000000000000000000000111791308800000000000000000000000000000000001120403456104488299900000000000000000000000011204034560000000000000000000000000000000000112040345600000000000000000000000000000000001120403456000000000000000000000000000000000011204034560000000000106253296600000000000000)
 (.leaf 11204034560000000000000000000000000000000000112040345611079330530000000000000000000000001120403456110347206800000000000000000000000011204034560000000000000000000000000000000000112040345600000000000000000000000000000000001120403456000000000000000000000000000000000011204034560000000000000000000000000000000000112040345600000000000000000000000000000000001120403456000000000000000000000000000000000011204034560000000000000000000000000000000000112040345600000000000000000000102363133000001117913088108207450110941124051070795216000011200102400000000000000000000000000000000000112040345600000000000000000000000000000000001120403456000000000010862005850000000000000011204034560000000000000000000000000000000000))
 (.node 1 (.leaf 11204034560000000000000000000000000000000000112040345600000000000000000000000000000000001120403456000000000000000000000000000000000011204034560000000000000000000000000000000000112040345600000000000000000000000000000000001120403456000000000000000000000000000000000011204034560000000000000000000000000000000000112040345600000000000000000000000000000000001120403456000000000000000000000000000000622111204034560000000000000000000000000000006222112040345600000000000000000000000000000000001120403456000000000000000000000000000000000011204034560000000000000000000000000000000000112040345600000000000000000000000000000000001120403456000000000000000000000000000000000011204034560000000000108341053400000000000000)
 (.leaf 11204034560000000000000000000000000000000000112040345600000000000000000000000000000000001120403456000000000000000000000000000000000011204034560000000000000000000000000000000000112040345600000000000000000000000000000000001120403456111142147400000000000000000000000011204034561101567540000000000000000000000000112040345610202055940000000000000000000000001120403456000000000000000000000000000000000011204034560000000000000000000000000000006223112040345600000000000000000000000000000000001120403456000000000000000000000000000000000011204034560000000000000000000000000000006224112040345600000000000000000000000000000000001120403456000000000000000000000000000000000011204034560000000000000000000010497381100000))))
 (.node 4 (.node 2 (.node 1 (.leaf 11163402241059455320000000000000000000000000112040345600000000000000000000000000000000001120403456000000000000000000000000000000000011204034560000000000000000000000000000000000112040345610924633191034630778000000000000001120403456000000000000000000000000000000000011204034560000000000000000000000000000000000112040345600000000000000000000000000000000001120403456108592077611055201261037074403000011204034561086554051109664062700000000000000112040345600000000000000000000000000000000001120403456112038299410204078261040553492000011204034561110742887000000000000000000000000112040345600000000000000000000000000000000001120403456000000000000000000000000000000000011204034560000000000000000000000000000000000)
 (.leaf 11204034560000000000000000000000000000000000112040345600000000000000000000000000000062251120403456000000000000000000001048029416000011204034560000000000000000000000000000000000112040345600000000000000000000000000000000001120403456000000000000000000000000000000000011204034560000000000000000000000000000000000112040345600000000000000000000000000000000001120403456000000000000000000000000000000000011204034560000000000000000000000000000000000112040345600000000000000000000000000000000001120403456000000000000000000000000000000000011204034560000000000000000000000000000000000112040345610619638490000000000000000000000001120403456105767279100000000000000000000000011204034560000000000000000000000000000000000))
 (.node 1 (.leaf 11204034561066927229000000000000000000000000112040345600000000000000000000101875725100001118175232000000000000000000000000000000000011204034560000000000106908363000000000000000112040345600000000000000000000000000000000001120403456000000000000000000000000000000000011204034560000000000000000000000000000006226112040345610792684950000000000000000000062271120403456110172439210831081241060296523000011204034560000000000000000000000000000000000112040345600000000000000000000000000000000001120403456000000000000000000000000000000000011204034560000000000000000000000000000000000112040345600000000000000000000000000000000001120403456000000000000000000000000000000000011204034560000000000108120852400000000000000)
 (.leaf 11204034560000000000000000000000000000000000112040345600000000000000000000000000000000001120403456000000000000000000000000000000000011204034560000000000000000000000000000000000112040345600000000001065864921000000000000001120403456000000000000000000000000000000000011204034560000000000000000000000000000000000112040345600000000000000000000000000000000001120403456000000000000000000000000000000000011204034560000000000000000000000000000006228112001024010616853470000000000101556272100001120403456103730506600000000000000000000000011204034560000000000000000000000000000000000112040345600000000000000000000000000000000001120403456000000000000000000000000000000000011204034560000000000000000000000000000000000)))
 (.node 2 (.node 1 (.leaf 11204034560000000000106694537400000000000000112040345610936439421045824537000000000000001120403456000000000000000000000000000000000011204034560000000000000000000000000000000000112040345611020272391068435191000000000000001120403456000000000000000000000000000000000011204034560000000000000000000010520049420000112040345600000000000000000000000000000000001120403456000000000000000000000000000000000011204034560000000000000000000000000000000000112040345600000000000000000000000000000062291120403456000000000000000000001022076371623011204034560000000000000000000000000000000000112040345600000000000000000000000000000000001120403456000000000000000000000000000000000011204034560000000000000000000000000000000000)
 (.leaf 11204034560000000000000000000000000000000000112040345600000000000000000000000000000000001120403456000000000000000000000000000000000011204034560000000000000000000000000000000000112040345600000000000000000000000000000000001120403456000000000000000000001028064007000011204034560000000000000000000000000000006231112040345600000000000000000000000000000062321120403456000000000000000000000000000000000011204034560000000000000000000000000000000000112040345600000000001056105615000000000000001120403456107194059700000000000000000000000011204034560000000000000000000000000000000000112040345600000000000000000000000000000000001120403456000000000000000000000000000000000011204034560000000000000000000000000000000000))
 (.node 1 (.leaf 11204034560000000000000000000000000000000000112040345600000000000000000000000000000000001120403456000000000000000000001009648359000011204034560000000000000000000000000000000000111935488000000000000000000000105781704200001120403456000000000000000000000000000000000011204034561036141935000000000000000000000000112040345600000000000000000000000000000000001120403456111144955700000000000000000000000011204034560000000000000000000000000000000000112040345600000000000000000000000000000000001120403456000000000010852002430000000000623311204034560000000000000000000000000000000000112040345600000000000000000000000000000000001120403456110295569300000000000000000000000011204034560000000000106936632600000000000000)
 (.leaf 11204034560000000000000000000000000000000000111411200000000000000000000000000000000000001120403456000000000000000000000000000000000011204034560000000000000000000000000000000000112040345600000000000000000000000000000000001120403456000000000000000000000000000000623411204034561096640620000000000010260444366235112040345600000000000000000000000000000000001120403456000000000000000000000000000000623611204034560000000000000000000000000000006237112040345600000000001092521925000000000000001120403456000000000010579276200000000000000011204034560000000000108116867800000000000000112040345600000000000000000000000000000000001120403456000000000000000000000000000000000011204034560000000000000000000000000000000000))))))
 (.node 16 (.node 8 (.node 4 (.node 2 (.node 1 (.leaf 11204034560000000000000000000000000000000000112040345600000000000000000000000000000000001120403456000000000000000000000000000000000011204034560000000000000000000000000000000000112040345600000000000000000000000000000000001120403456000000000000000000000000000000623811204034560000000000000000000000000000000000112040345600000000000000000000000000000000001120403456000000000000000000000000000000000011204034560000000000000000000000000000000000112040345600000000000000000000000000000000001120403456000000000000000000000000000000623911204034560000000000000000000000000000000000112040345600000000000000000000000000000000001120403456000000000000000000000000000000000011204034560000000000000000000000000000000000)
 (.leaf 11204034560000000000000000000000000000000000112040345600000000000000000000000000000000001120403456000000000000000000000000000000000011204034560000000000000000000010413439800000112040345600000000000000000000000000000000001099431936000000000000000000000000000000000011204034560000000000000000000000000000000000112040345600000000000000000000000000000000001120403456000000000000000000000000000000000011204034560000000000000000000000000000006240111673344000000000000000000000000000000000001120403456000000000000000000000000000000000011204034560000000000000000000000000000000000110677196810955106031044475648104985203562411120403456000000000000000000000000000000000011204034560000000000108194252700000000000000))
 (.node 1 (.leaf 11204034560000000000000000000000000000000000112040345600000000000000000000000000000000001120403456000000000000000000001019427287000011204034560000000000000000000000000000000000112040345600000000000000000000102021704600001120403456000000000000000000001034073315624211204034560000000000108290763710528930360000112040345600000000001065411097000000000000001120403456000000000000000000000000000000000011204034561119756432106095423010761365090000112040345611070539441059580176108300541862431120403456000000000000000000000000000000000011204034560000000000000000000000000000006244112040345600000000000000000000000000000000001120403456000000000000000000000000000000000011204034561025218626000000000000000000000000)
 (.leaf 11204034560000000000000000000000000000000000112040345600000000000000000000000000000000001120403456000000000010859805930000000000000011204034560000000000106396909600000000000000112040345600000000000000000000000000000000001120403456000000000000000000000000000000000011204034560000000000000000000000000000000000112040345600000000000000000000000000000000001120403456000000000000000000001029882567000011204034560000000000000000000000000000000000112040345600000000000000000000000000000000001120403456000000000000000000000000000000000011204034561066266677110610323910538664580000112040345610806192961109360247107381598000001120403456111946018210577934021071901744000011204034560000000000000000000000000000000000)))
 (.node 2 (.node 1 (.leaf 11204034560000000000000000000000000000006245112040345600000000000000000000000000000000001107558400108173503510739070801071428373000011204034560000000000000000000000000000000000112040345600000000001074755168000000000000001120403456000000000000000000000000000000624610905190400000000000000000000010528290110000112040345600000000000000000000000000000000001120403456000000000000000000000000000000000011204034560000000000110246688200000000000000112040345611156515691027933313104910602100001120403456000000000000000000000000000000624711204034560000000000000000000000000000000000112040345600000000000000000000000000000062481100480512000000000000000000000000000000000011204034561082471343102578583000000000000000)
 (.leaf 11204034561106307999000000000000000000000000112040345600000000000000000000000000000000001120403456000000000000000000000000000000000011204034560000000000000000000000000000000000112040345600000000000000000000103729114700001120403456000000000000000000000000000000000011204034560000000000000000000010347856460000111568486400000000000000000000000000000000001120403456000000000000000000000000000000000011204034560000000000000000000000000000000000112040345600000000000000000000000000000000001120403456000000000000000000001038260836000011204034560000000000000000000000000000000000110048051200000000000000000000000000000062491120403456000000000000000000000000000000000011204034560000000000000000000000000000000000))
 (.node 1 (.leaf 11204034560000000000000000000000000000000000112040345600000000000000000000000000000000001120403456110263847910599056541062891496000011204034561083290480111092000410759552510000112040345611150033321053310530106312900200001120403456000000000000000000000000000000000011204034560000000000000000000010588769460000112040345610939866431076075954000000000000001120403456000000000010216116580000000000000011141120000000000000000000000000000000000000112040345600000000000000000000000000000000001120403456000000000000000000000000000000000011204034561077256403106478614600000000000000112040345600000000000000000000000000000000001120403456109846208800000000000000000000000011204034560000000000000000000000000000006250)
 (.leaf 11204034560000000000000000000000000000000000112040345600000000000000000000000000000000001120403456000000000000000000000000000000625111185684480000000000000000000000000000000000112040345600000000000000000000000000000000001120403456000000000010831557300000000000000011204034560000000000109064780500000000000000112040345600000000000000000000000000000000001120403456000000000000000000000000000000000011204034560000000000000000000000000000000000112040345600000000000000000000000000000000001120403456000000000000000000000000000000000011204034561091176333103663062200000000000000112040345600000000000000000000000000000000001120403456000000000000000000000000000000000011204034560000000000000000000010197997476252))))
 (.node 4 (.node 2 (.node 1 (.leaf 11204034560000000000000000000010405571510000112040345600000000001083634929000000000000001120403456000000000000000000000000000000000011204034560000000000000000000000000000000000112040345600000000000000000000000000000000001120403456105589475800000000001037077092000011204034560000000000000000000000000000000000112040345600000000000000000000102925128800001120403456000000000000000000000000000000000011204034560000000000000000000010359044710000112040345600000000000000000000000000000000001120403456000000000000000000000000000000000011204034560000000000000000000000000000000000112040345600000000000000000000000000000000001120403456110880307410237188770000000000000011204034560000000000106490526400000000000000)
 (.leaf 11204034560000000000000000000000000000000000112040345600000000000000000000000000000000001120403456000000000000000000000000000000000011204034560000000000000000000000000000006253112040345600000000000000000000000000000000001120403456105853218700000000001027899372000011204034560979241269000000000000000000000000112040345600000000000000000000000000000000001120403456110385848510379325340000000000000011204034560000000000000000000000000000000000112040345600000000000000000000000000000000001120403456111150363500000000000000000000000011204034560000000000000000000000000000000000112040345600000000000000000000000000000000001120403456000000000000000000000000000000000011204034560000000000000000000010357391050000))
 (.node 1 (.leaf 11091312640000000000000000000010749178050000112040345610911609000000000000000000000000001120403456000000000000000000000000000000000011204034560000000000000000000000000000000000112040345610752552710000000000000000000000001120403456000000000000000000000000000000000011204034560000000000000000000000000000006254112040345600000000000000000000000000000062551116733440000000000000000000000000000000000011204034560000000000000000000000000000000000112040345600000000000000000000000000000000001120403456000000000000000000001056081966625611200102400000000000000000000010655359850000112040345600000000000000000000105184922200001120403456000000000000000000000000000000000011204034561093554382104459644410726011346257)
 (.leaf 11171266560000000000000000000010577605960000112040345600000000000000000000000000000062581120403456105758957600000000000000000000000011204034560000000000000000000010383405700000112040345600000000000000000000000000000000001116078080000000000000000000001073176221625911204034560000000000000000000000000000000000111961702400000000000000000000000000000000001120403456000000000000000000000000000000626011204034560000000000000000000000000000006261112040345600000000000000000000104916834900001120403456105463858100000000000000000000000011204034560000000000000000000010394048580000112040345600000000001083893927000000000000001120403456000000000000000000000000000000000011204034560000000000000000000000000000000000)))
 (.node 2 (.node 1 (.leaf 11204034560000000000000000000000000000000000112040345611049219780000000000000000000000001120403456000000000000000000000000000000000011196170240000000000000000000010451392596262112040345600000000000000000000105614580000001120403456000000000000000000001024755960000011204034560000000000107467967010201802670000112040345600000000000000000000104185916100001120403456000000000000000000000000000000000011204034560000000000000000000000000000006263112040345600000000000000000000000000000062641120403456000000000000000000000000000000626511193548800000000000000000000000000000000000111935488000000000000000000000000000000000001120403456108843966800000000000000000000000011204034560000000000000000000010700272600000)
 (.leaf 11204034560000000000000000000010529095206266111122841600000000000000000000103220287400001120403456000000000000000000000000000000626711204034560000000000000000000000000000000000112040345600000000000000000000000000000000001120403456000000000000000000001054747733000011204034560000000000000000000010482058340000111961702400000000000000000000105044841000001093664768000000000000000000001056614186000011204034560000000000000000000000000000000000112040345600000000000000000000103914115500001120403456000000000000000000001038251162000011204034560000000000000000000010527551610000112040345600000000000000000000000000000000001120403456000000000000000000001050388825000011204034560000000000000000000010742504980000))
 (.node 1 (.leaf 11179130880000000000000000000010704518050000112040345600000000000000000000000000000000001120403456000000000000000000001065901840626811204034561064852366106898548300000000000000112040345600000000000000000000000000000000001086324736000000000000000000001056986500000010936647680000000000000000000010422572410000112040345600000000000000000000000000000000001120403456000000000000000000000000000000000011204034560000000000000000000000000000000000112040345600000000000000000000000000000000001120403456000000000000000000001047513428626911204034560000000000000000000000000000000000112040345600000000000000000000000000000000001120403456000000000000000000000000000000000011204034560000000000000000000000000000000000)
 (.leaf 11204034560000000000000000000000000000000000112040345611094068550000000000000000000000001120403456000000000000000000000000000000000011204034560000000000000000000000000000000000112040345600000000000000000000000000000000001120403456000000000000000000001034378809000011204034560000000000000000000000000000000000112040345600000000000000000000000000000000001120403456000000000000000000000000000000627011204034560000000000000000000010540117820000112040345600000000000000000000000000000000001120403456000000000000000000001064260109000011204034560000000000000000000010762874450000112040345600000000000000000000000000000000001120403456000000000000000000001040615943627111204034560000000000000000000000000000000000)))))
 (.node 8 (.node 4 (.node 2 (.node 1 (.leaf 11204034560000000000000000000010250630850000112040345600000000000000000000105012233200001120403456000000000010683336881028208479000011204034560000000000000000000010759144670000112040345600000000000000000000106611209100001110441984000000000000000000001083046509000011204034560000000000000000000010411712670000112040345600000000000000000000102497279200001120403456000000000000000000001029374553000011204034560000000000000000000000000000000000111961702400000000000000000000000000000000001105199104000000000000000000000000000000000011204034560000000000000000000000000000000000112040345600000000000000000000000000000000001117913088000000000000000000001060310108627211156848640000000000000000000010644744776273)
 (.leaf 11204034560000000000000000000000000000000000112040345600000000001051941510107422609100001117519872000000000000000000000000000000000011189616640000000000000000000010516800390000111712665600000000000000000000104398470600001120403456000000000000000000000000000000627411204034560000000000000000000000000000000000112040345600000000000000000000000000000000001120403456000000000000000000000000000000000011204034560000000000106200951700000000000000112040345600000000000000000000000000000000001120010240000000000000000000001038214655000011196170241055632866000000000010377540870000112040345600000000000000000000000000000062751120403456000000000000000000000000000000000011204034560000000000106066062900000000000000))
 (.node 1 (.leaf 11204034561095521808000000000000000000000000112040345600000000000000000000000000000000001120403456000000000000000000001074629423627611204034560000000000000000000000000000000000110991769600000000001084322795107453440600001118175232000000000000000000001041028012000011204034560000000000000000000010421515070000112040345600000000000000000000000000000000001114898432000000000000000000001081920161000011200102400000000000000000000010719716510000112040345600000000000000000000000000000000001093664768000000000000000000000000000000000011156848641051530434000000000000000000000000110755840010248863030000000000107077944700001120010240000000000000000000000000000000000011099176960000000000000000000000000000000000)
 (.leaf 11160780800000000000000000000010684911370000112040345600000000000000000000000000000000001120403456000000000000000000000000000000000011196170240000000000000000000000000000006277111751987200000000000000000000107818179500001120403456000000000010405430691049908863627811204034560000000000000000000000000000000000111122841600000000000000000000000000000000001114898432106564165800000000001049567251000011156848641081375071000000000010569011366279112040345600000000000000000000107610538400001118568448000000000000000000001070751075000011204034560000000000000000000010212864250000112040345600000000001070247130103211560900001120403456000000000010528541901042805423000011204034561057512938000000000010523229236280)))
 (.node 2 (.node 1 (.leaf 11200102400000000000000000000010838413770000112040345600000000000000000000000000000062811120403456000000000010203768550000000000000011204034560000000000000000000010437420710000111358771200000000000000000000103642634300001099431936000000000000000000001051418828000011204034560000000000000000000010540460346282110205337600000000000000000000105990234500001120403456105101436700000000001080317279628311204034560000000000000000000010356602560000112040345600000000001025436864105918003600001120403456000000000000000000001063737012628411204034560000000000000000000010477182200000112040345600000000000000000000105939368562851120403456000000000000000000001061505346000011135877120000000000000000000010657270300000)
 (.leaf 11204034560000000000000000000010553470036286112040345600000000000000000000105979376800001120403456000000000000000000000000000000628711204034560000000000000000000010594169550000112040345600000000000000000000109003312662881120403456000000000000000000001042841414000011204034560000000000000000000010610940960000111961702400000000001060174089108414409900001120010240000000000000000000001068798609628911204034560000000000000000000000000000006290112040345600000000000000000000000000000062911120403456000000000000000000000000000000629211204034560000000000000000000000000000006293112040345600000000000000000000000000000062941120403456000000000000000000000000000000629511204034560000000000000000000000000000006296))
 (.node 1 (.leaf 11204034560000000000000000000000000000006297112040345600000000000000000000000000000062981120403456000000000000000000000000000000629911204034560000000000000000000000000000000000111935488000000000000000000000000000000000001118175232000000000000000000000000000000000011204034560000000000000000000010683857360000110677196800000000000000000000000000000000001120010240000000000000000000000000000000000011204034560000000000000000000000000000000000112001024000000000000000000000104947823500001113587712000000000000000000000000000000000011200102400000000000000000000000000000000000112040345600000000000000000000000000000000001120403456000000000010670418430000000000630011120148480000000000000000000010412775720000)
 (.leaf 11204034560000000000000000000010571574520000112040345600000000000000000000000000000000001117913088000000000000000000000000000000000011181752320000000000000000000000000000000000111607808000000000000000000000000000000000001119354880000000000000000000000000000000000011204034560000000000000000000010747256040000112040345600000000000000000000000000000000001120403456000000000000000000001078749109000011204034561074123585000000000010692310330000112040345600000000000000000000105748275463011117913088000000000000000000000000000000000010994319360000000000000000000000000000000000112040345600000000000000000000108348792400001120403456000000000000000000001050303197000011204034560000000000000000000000000000000000))))
 (.node 4 (.node 2 (.node 1 (.leaf 11204034560000000000000000000000000000000000112040345600000000000000000000106561833800001120403456000000000000000000001044522251000011181752320000000000000000000010466716280000112040345600000000000000000000000000000000001118961664000000000000000000000000000000000011204034560000000000000000000000000000000000112040345600000000000000000000000000000000001120403456000000000000000000001069831855000011135877120000000000000000000010739552900000111791308800000000000000000000107621194900001111228416000000000000000000001080153264000011204034560000000000000000000010638027240000112001024000000000000000000000105084125700001120403456000000000000000000000000000000000011204034560000000000000000000010358902370000)
 (.leaf 11204034560000000000000000000010595394830000112040345600000000000000000000107158055700001120403456000000000000000000001051390371000011204034560000000000000000000000000000000000112040345600000000000000000000107501107900001118961664000000000000000000001084390811000011204034560000000000000000000000000000000000112040345600000000000000000000000000000000001120403456000000000000000000000000000000000011204034560000000000000000000000000000000000112040345600000000000000000000000000000000001120403456000000000000000000000000000000000011204034560000000000000000000000000000000000112040345600000000000000000000000000000000001120403456000000000000000000000000000000000011204034560000000000000000000000000000000000))
 (.node 1 (.leaf 11204034560000000000000000000000000000000000112040345600000000000000000000000000000000001120403456000000000000000000000000000000000011204034560000000000000000000000000000000000112040345600000000000000000000000000000000001120403456000000000000000000001078448814000011179130880000000000000000000000000000000000111856844800000000000000000000107928646900001120010240000000000000000000001045555050000011204034560000000000000000000000000000000000112040345600000000000000000000000000000000001120403456000000000000000000000000000000000011204034560000000000000000000000000000000000112040345600000000000000000000107460759800001093664768000000000000000000000000000000000011204034560000000000000000000010989188570000)
 (.leaf 11204034560000000000000000000000000000000000111961702400000000000000000000000000000000001120403456000000000000000000000000000000000011204034560000000000000000000000000000000000112040345600000000000000000000000000000000001120403456000000000000000000000000000000000011204034560000000000000000000000000000000000112040345600000000000000000000000000000000001120403456000000000000000000000000000000000011204034560000000000000000000000000000000000112040345600000000000000000000000000000000001120403456000000000000000000000000000000000011204034560000000000000000000000000000000000112040345600000000000000000000000000000000001120403456000000000000000000000000000000000011204034560000000000000000000000000000000000)))
 (.node 2 (.node 1 (.leaf 11204034560000000000000000000000000000000000112040345600000000000000000000000000000000001120403456108547695000000000001077470833630211189616640000000000000000000000000000000000112040345600000000000000000000000000000000001120403456000000000000000000000000000000000011204034560000000000000000000000000000000000112040345600000000000000000000000000000000001120403456000000000000000000000000000000000011204034560000000000000000000000000000000000112040345600000000000000000000107654386400001120403456000000000000000000001047427265000011204034560000000000000000000000000000000000112040345600000000000000000000000000000000001120403456000000000000000000000000000000000011204034560000000000000000000000000000000000)
 (.leaf 11204034560000000000000000000000000000000000112040345600000000000000000000000000000000001120403456000000000000000000000000000000000011204034560000000000000000000000000000000000112040345600000000000000000000000000000000001120403456000000000000000000000000000000000011204034560000000000000000000000000000000000112040345600000000000000000000104117869800001120403456000000000000000000001048829144000011204034560000000000000000000000000000000000111856844800000000000000000000000000000000001118961664000000000000000000001056775802000011204034560000000000000000000010579278060000112040345600000000000000000000000000000000001120403456000000000000000000000000000000000011204034560000000000000000000000000000000000))
 (.node 1 (.leaf 11204034560000000000000000000000000000000000112040345600000000000000000000000000000000001120403456000000000000000000000000000000000011204034560000000000000000000000000000000000112040345600000000000000000000000000000000001120403456000000000000000000000000000000000011204034560000000000000000000000000000000000112040345610477037190000000000105074668100001120403456000000000000000000001028899702000011204034560000000000000000000000000000000000112040345600000000000000000000000000000000001120403456000000000000000000000000000000000011204034560000000000000000000000000000000000112040345600000000000000000000000000000000001120403456000000000000000000000000000000000011204034560000000000000000000010664588830000)
 (.leaf 11204034560000000000000000000000000000000000112040345600000000000000000000106986468800001120403456000000000000000000001054233015000011204034560000000000103581189410680371930000112040345600000000000000000000000000000000001120403456000000000000000000000000000000000011204034560000000000000000000000000000000000112040345600000000000000000000000000000000001120403456000000000000000000000000000000000011204034560000000000000000000000000000000000112040345600000000000000000000000000000000001120403456000000000000000000000000000000000011204034560000000000000000000000000000000000112040345600000000000000000000000000000000001120403456000000000000000000000000000000000011204034560000000000000000000000000000000000)))))))
 (.node 32 (.node 16 (.node 8 (.node 4 (.node 2 (.node 1 (.leaf 11204034560000000000000000000000000000000000112040345600000000000000000000000000000000001120403456000000000000000000001048421297000011204034560000000000000000000000000000000000112040345600000000000000000000105734027300001096810496000000000000000000001075801528000011204034560000000000000000000000000000000000112040345600000000000000000000000000000000001120403456000000000000000000000000000000000011204034560000000000000000000000000000000000112040345600000000000000000000104009202100001120403456000000000000000000000000000000000011204034560000000000000000000010836678030000112040345600000000000000000000108519282000001099431936000000000000000000000000000000000011204034560000000000000000000000000000000000)
 (.leaf 11167334400000000000000000000010721209630000112040345600000000000000000000000000000000001120403456000000000000000000000000000000000011204034560000000000000000000010510639080000112040345600000000000000000000000000000000001120403456110322117100000000001061443898000011204034560000000000000000000010694364180000112040345610751944790000000000106035137163031120403456000000000011057912871056408430000011204034560000000000000000000010555565680000112040345600000000000000000000000000000000001120403456000000000000000000000000000000000011204034560000000000000000000000000000000000112040345600000000000000000000000000000000001120403456000000000000000000001078480473000011193548800000000000000000000010831809890000))
 (.node 1 (.leaf 11204034560000000000110801238110442538380000112040345600000000000000000000106594469700001119354880000000000000000000000000000000000011204034560000000000000000000000000000000000111280128000000000001062673895103724549600001096810496000000000000000000000000000000000011204034560000000000000000000010663275576304112040345600000000000000000000107950482000001120403456105965689800000000001088455952000011204034560000000000000000000010514843600000112040345600000000000000000000105812431100001120403456000000000000000000001074051900000011204034560000000000000000000010784808690000112040345610919014091071205948107079055200001120403456000000000010997056141035932555000011204034560000000000000000000010727817300000)
 (.leaf 11167334400000000000000000000010885909840000112040345600000000000000000000104831151100001117519872000000000000000000001099900424000011128012801054785852000000000010911412290000112040345610709885570000000000000000000000001120403456000000000000000000000000000000000011204034560000000000000000000000000000000000112040345600000000000000000000000000000063051102053376000000000010511194261068679123000011204034560000000000000000000010582762660000112040345600000000000000000000107025403600001120403456000000000000000000001082761661000011204034561082705083103524818010808896600000112040345610679177390000000000106117242700001120403456000000000000000000001049734585000011204034560000000000000000000010650459500000)))
 (.node 2 (.node 1 (.leaf 11204034560000000000105995598610738982590000111791308800000000001100470970107493363800001120403456000000000000000000001091582276000011204034560000000000000000000010580519950000111489843200000000000000000000107066742500001120403456000000000000000000001046870408000011204034560000000000000000000000000000000000112040345600000000000000000000000000000000001120403456000000000000000000000000000000000011020533760000000000000000000000000000000000110048051200000000000000000000105569700900001120403456000000000010300539541074001113000011204034560000000000000000000010770863650000112040345600000000000000000000105696803000001120403456000000000000000000001064560685000011204034560000000000000000000010410927020000)
 (.leaf 11204034560000000000105347159210805251880000112040345610340116321074138605108456539700001116078080000000000010972022441084289457000011112284160000000000000000000010681629400000112040345600000000000000000000107445151400001120403456000000000000000000001071032617000011204034560000000000000000000000000000000000112040345600000000000000000000000000000000001120403456000000000000000000000000000000000011204034560000000000000000000000000000000000112040345600000000000000000000000000000000001120403456000000000000000000000000000000000011204034560000000000000000000000000000000000111961702400000000000000000000104094964500001120403456000000000000000000001046189832000011204034560000000000000000000010412759800000))
 (.node 1 (.leaf 11204034560000000000000000000000000000000000112040345600000000000000000000000000000000001120403456000000000000000000001037292541000011204034560000000000000000000010561728640000112040345600000000000000000000106683816500001120403456104378476310384694051089748862000011204034561021484420106883532710951385720000109943193600000000000000000000106129995300001116733440000000000000000000001079063145000011204034560000000000000000000010904392146306111751987200000000000000000000109087190400001103626240000000000000000000001081855353000011204034560000000000000000000010888274670000112040345600000000000000000000108313953300001120403456000000000000000000000000000000000011204034560000000000000000000000000000000000)
 (.leaf 11204034560000000000000000000000000000000000112040345600000000000000000000000000000000001120403456000000000000000000000000000000000011204034560000000000000000000000000000000000112040345600000000000000000000000000000000001120403456000000000000000000001082769529000011204034561081418084000000000010727453440000112040345600000000000000000000107343941100001120403456000000000000000000001076099030000011204034560000000000000000000010675780060000112040345600000000000000000000107837361300001120403456105705632900000000001044098369000011204034561068078306000000000010391180390000112040345600000000001059352006108407540600001120403456105219890611162591951088050052630711181752320000000000111627873810821695000000))))
 (.node 4 (.node 2 (.node 1 (.leaf 11075584000000000000110408918610601336120000111712665600000000000000000000108503952800001120403456000000000000000000001074334118000011204034560000000000000000000010869076840000112040345600000000000000000000108309665700001120403456000000000000000000001082702390630811204034560000000000000000000000000000000000112040345600000000000000000000000000000000001120403456109223836510191420521069459317000011204034560000000000000000000010740832880000112040345600000000000000000000000000000000001120403456000000000000000000000000000000000011204034560000000000000000000000000000000000112040345600000000000000000000000000000000001120403456000000000000000000000000000000000011204034561068980240000000000000000000000000)
 (.leaf 11204034560000000000104218052500000000000000112040345600000000000000000000000000000000001120403456000000000010513341741073041151000011204034560000000000106772048110706645360000112040345600000000001033489927105697782400001120403456000000000011167087981081031799000011204034560000000000111705181410473422460000112040345600000000001117014616103385135700001120403456000000000011164075161086007513000011204034560000000000111659342900000000000000112040345600000000000000000000108379413400001120403456000000000000000000001084779700630911185684480000000000000000000011011390430000111751987200000000000000000000108059897363101118175232000000000000000000001048166564000011204034560000000000000000000000000000000000))
 (.node 1 (.leaf 11204034560000000000000000000010806864200000111856844800000000000000000000107397510500001112014848000000000010543037421046605228000011204034561051673846099478153510856617986311112040345600000000000000000000105300324900001120403456000000000000000000001046556041631211204034560000000000000000000010666716110000112040345600000000000000000000104691320300001120403456000000000000000000000000000000000011204034560000000000000000000010509255090000112040345600000000000000000000104309617300001120403456000000000010250878980000000000000011204034560000000000000000000010602943260000112040345600000000000000000000000000000000001120403456000000000011170695351030836850000011204034560000000000111707367710517726600000)
 (.leaf 11204034560000000000111706277210409941130000112040345600000000001117053452104518680300001120403456000000000011124543591042695203000011204034560000000000108393922600000000000000111044198400000000001095916375107779894900001114898432000000000011007838651094942124631311179130880000000000110652869810890251810000112040345600000000000000000000108003697000001120403456000000000000000000001096247619631411175198720000000000000000000010813614930000111122841600000000000000000000106725631663151119617024000000000000000000001084571968631611135877120000000000000000000010841791590000111607808000000000000000000000108502071863171120403456105788450300000000001090939478000011204034560000000000000000000000000000000000)))
 (.node 2 (.node 1 (.leaf 11204034560000000000000000000000000000000000112040345600000000000000000000105914981300001119354880000000000000000000001060927337000011204034560000000000000000000000000000000000111961702411020030621093911288109385615700001120403456000000000000000000001060796183000011204034561066759256000000000010563672710000112040345610990351731061016306107434415300001120403456000000000000000000001063438022631811204034560000000000000000000010441632080000112040345600000000000000000000000000000000001120403456000000000000000000000000000000000011204034560000000000000000000010345129360000112040345600000000000000000000000000000000001120403456000000000010808817880000000000000011204034560000000000000000000000000000000000)
 (.leaf 11204034561048726659109083864610951458230000112040345611119917651082216415109341297100001120403456108166759110812076851103187354000011204034560000000000104059675610663332250000112040345600000000001074435981000000000000001120403456000000000011099182470000000000000011181752320000000000000000000010762348126319111856844800000000000000000000109126812600001120403456000000000000000000000000000000000011204034560000000000000000000010843427730000112040345600000000000000000000108525218200001120403456000000000000000000001074756509632011204034560000000000000000000010487459920000112040345600000000000000000000106272622100001120403456000000000000000000001062380322000011204034560000000000000000000010833399010000))
 (.node 1 (.leaf 11204034560000000000000000000000000000006321112040345600000000000000000000107629378000001120403456000000000000000000001065050552632211204034560000000000000000000000000000000000112040345600000000000000000000000000000000001120403456104843191700000000000000000000000011204034560000000000000000000000000000000000112040345600000000000000000000000000000000001120403456000000000000000000000000000000000011204034560000000000106283663410329400690000112040345600000000001073938117000000000000001120403456000000000000000000001055372072000011204034561114756204108857980410949679250000112040345600000000001106437000000000000000001120403456000000000010603787710000000000000011204034560000000000108784978510359673100000)
 (.leaf 11128012800000000000102503421110780974570000112040345600000000001081329739103773103700001120403456000000000011053115641063902579000011204034560000000000110590060110927360060000112040345610823587071114808045108927399300001120403456000000000000000000001067771401000011204034560000000000000000000010846543650000112040345610703750390000000000108319777700001120403456000000000000000000001049662076000011112284160000000000000000000010854736970000112040345610761568410000000000108768942800001120403456000000000000000000000000000000000011204034560000000000000000000010804101746323112040345610985535741042032886107386988700001120403456000000000000000000001070173268000011204034560000000000000000000010656891056324)))))
 (.node 8 (.node 4 (.node 2 (.node 1 (.leaf 11204034560000000000000000000010751750160000112040345600000000000000000000108416324100001114112000000000000011048635071061219343000011181752320000000000110284332110622510790000112040345600000000000000000000105781016000001120403456102216034100000000001059604002000011204034560000000000000000000000000000006325112040345600000000000000000000000000000000001120403456000000000010672591081044243054000011204034560000000000000000000000000000000000112040345600000000000000000000107023180500001120403456000000000010735841180000000000000011204034560000000000000000000000000000000000112040345600000000000000000000000000000000001120403456104908998710892676691074923174000011204034561117722158107304389210979553530000)
 (.leaf 11204034560000000000104189866810666072990000112040345600000000000000000000105845090700001120403456109720737310798306951058939584000011204034560000000000107070766410283043200000111856844800000000000000000000107429495363261120403456000000000010985074071055961819000011204034560000000000110633057010427563420000112040345600000000001115030343104579586600001120403456000000000010768997151056480207000011204034560000000000000000000010745829460000112040345600000000000000000000110059599300001120403456000000000000000000001064989582632711204034560000000000000000000010830792860000112040345600000000000000000000107635321500001120403456000000000000000000001057292869000011204034560000000000000000000010846065870000))
 (.node 1 (.leaf 11204034560000000000000000000000000000000000112040345600000000000000000000000000000000001120403456000000000000000000000000000000000011204034560000000000000000000000000000000000112040345600000000000000000000000000000000001120403456000000000000000000000000000000000011204034560000000000000000000010855931926328112040345610882055251049072606108090588500001120403456000000000000000000001058202951000011204034560000000000000000000010600513506329112040345600000000000000000000105098949463301120403456000000000000000000001079164095633111204034560000000000000000000010735240920000112040345600000000000000000000107749956600001120403456000000000011099316421085705547000011141120000000000000000000000010340627770000)
 (.leaf 11204034561068854554000000000010738265470000112040345600000000000000000000000000000000001120403456000000000000000000000000000000000011204034560000000000107607805100000000000000112040345600000000000000000000000000000000001120403456000000000011011926001041984476000011204034560000000000109636810210703325150000112040345600000000001084536914105972904200001120010240000000000000000000001068366426000011204034560000000000110447380410284962270000112040345600000000001109492997103627633600001120403456000000000011164231661044112057000011204034561066323912110573712810762651880000112040345600000000000000000000109202669600001120403456000000000000000000001095596543000011204034560000000000000000000010869017790000)))
 (.node 2 (.node 1 (.leaf 11204034560000000000000000000010869190050000112040345600000000000000000000108968101300001112014848000000000000000000001083111699000011204034560000000000000000000010854885120000110519910400000000000000000000105541790400001120403456000000000000000000000000000000000011204034560000000000000000000000000000000000112040345600000000000000000000000000000000001117126656000000000000000000001078195673000011204034560000000000000000000000000000000000112040345611024773571049867846107603135100001120403456000000000011000904941089468699000011204034560000000000103524818010540384080000112040345600000000000000000000106736327600001120403456000000000010401605481030101984000011204034560000000000105277030410791165650000)
 (.leaf 11204034560000000000000000000010510948690000112040345600000000000000000000103838832800001120403456000000000000000000001092094118000011204034560000000000000000000010269564300000112040345600000000000000000000000000000000001120403456000000000000000000000000000000000011204034560000000000000000000000000000000000112040345600000000000000000000000000000000001120403456105707963300000000001059531830000011204034560000000000105903491600000000000000112040345600000000001035664255100424121100001120403456000000000000000000001041179923000011204034561119155111102506105400000000000000112040345600000000001070209381107910843400001120403456000000000010855550811028192744000011204034561030555928110806900410687785760000))
 (.node 1 (.leaf 11204034560000000000111197096510509999310000112040345600000000001116515992000000000000001120403456104775921811170414591041711701000011204034560000000000107765804610238715480000112040345600000000001103310252108580606600001120403456000000000000000000001085063276633211204034560000000000000000000010800663820000112040345600000000000000000000109218030063331120403456000000000000000000001098486955000011204034560000000000000000000010838749410000111044198400000000000000000000107739293800001120403456000000000000000000000000000000000011204034560000000000000000000010752160596334112040345600000000000000000000105073420400001120403456000000000000000000001098227380633511148984321106529549105373667210848819430000)
 (.leaf 11204034561076739862110816696710615617630000111634022411082260511107456771106268228600001120403456000000000010495222351060333078000011204034561059724007000000000010588584760000112040345600000000000000000000106286481700001120403456109748248710915402481071633995000011204034560000000000000000000000000000006336112040345600000000000000000000000000000000001120403456000000000000000000001050914670000011204034560000000000107407023800000000000000112040345600000000000000000000000000000000001120403456000000000010256784561053709730000011204034560000000000000000000010619832890000112040345600000000000000000000105337027200001120403456000000000010535722551035199414000011204034560000000000000000000010422689630000))))
 (.node 4 (.node 2 (.node 1 (.leaf 11204034561111562775107535327610823334820000112040345600000000001097074842000000000000001120403456000000000010906420381030268931000011204034560000000000105125028800000000000000112040345611017495031099942855105851016200001120403456000000000010842724630000000000000011204034560000000000104697209810406223930000111489843200000000001063412092105583765000001117913088000000000000000000001065206535000011160780801076044702111212848710586922616337112040345600000000001116468452108567783100001120403456000000000011161383861071243207000011204034560000000000109422240110629459980000112040345600000000001108035109105804367100001120403456000000000010273964430000000000000011204034560000000000111218212210845803600000)
 (.leaf 11204034560000000000109986190510690575720000112040345600000000000000000000109342521063381120403456000000000000000000001095084007633911204034560000000000000000000010881336360000112040345600000000000000000000107951484800001120403456000000000000000000001092672398000011148984320000000000000000000010830701970000110205337600000000000000000000102378327600001120403456000000000000000000001076388439000011204034560000000000000000000000000000000000112040345600000000000000000000000000000000001120403456000000000000000000000000000000000011204034560000000000000000000000000000000000110205337600000000000000000000000000000000001119617024000000000000000000001066421594000011204034560000000000000000000010862251866340))
 (.node 1 (.leaf 11204034560000000000000000000010905501546341112040345600000000000000000000108710657400001116078080000000000000000000001086163067000011204034561030190587000000000010538442380000111358771200000000001095853880107686709500001120403456000000000011033270811046127049000011204034560000000000110901086110672746620000112040345600000000001115863882108567191700001120403456000000000000000000001047811066634211204034560000000000000000000000000000000000112040345600000000001073967058107170775200001120403456000000000010451735811059376336000011204034560000000000000000000000000000000000112040345600000000001021826407103940364700001120403456000000000000000000000000000000000011204034560000000000108372405800000000000000)
 (.leaf 11204034560000000000104312004910404286410000112040345600000000000000000000103737193500001120403456000000000000000000000000000000000011204034560000000000109628190900000000000000112040345610690291540000000000000000000000001120403456107460445000000000001071780897000011204034560000000000110278045910683212196343112040345600000000000000000000109272036563441120403456000000000000000000001084608162000011204034560000000000000000000010845433766345111358771200000000000000000000106138171200001120403456000000000000000000001090670132000011204034560000000000000000000000000000000000112040345600000000000000000000108105634400001120403456104296583300000000001083432526000011067719680000000000000000000010751431580000)))
 (.node 2 (.node 1 (.leaf 11204034560000000000000000000010839469710000112040345600000000000000000000108682517000001120403456000000000000000000001070916004000011204034560000000000109417479510810027600000112040345600000000001046475493104552460500001120403456109625898011079459541038337285000011204034560000000000109690979610540481080000112040345600000000001092267750000000000000001120403456000000000000000000001052228353000011204034561047501721110573387810394070780000112040345610260564131108577092106355552200001120403456109438033211160338431074350294000011204034560000000000111214487110753338490000112040345611164660441085540611105152331300001120403456000000000000000000001033477383000011204034560000000000000000000010415132190000)
 (.leaf 11204034560000000000000000000010668802120000112040345600000000000000000000106175444900001120403456000000000000000000001029004556000011204034560000000000109061886400000000000000112040345600000000000000000000107150503400001120403456000000000010431468931061712738000011204034560000000000104183827000000000000000112040345600000000001038469405000000000000001120403456000000000000000000000000000000000011204034560000000000000000000010275545690000112040345600000000000000000000105334593100001120403456000000000010312082261064428917000011204034561050691204107558480100000000000000112040345610705631791083189074000000000000001120403456000000000010752685510000000000000011204034560000000000107696514710655898820000))
 (.node 1 (.leaf 11204034561073448340107699324810691432770000112001024000000000001111342789106492167763461120403456104156674811170599671040284633000011204034561084351232111026485310649740830000112040345610627600621086681042000000000000001120403456000000000010915961371034834390000011204034560000000000000000000000000000000000112040345600000000001100337329107579700000001120403456000000000000000000001096014616000011204034561081335435000000000010778454930000112040345600000000000000000000105046612200001120403456000000000000000000001082315960000011204034560000000000107973212910745627166347112040345610786937371108940476106760601600001120403456111038799611108808131080308989000011204034561120247673000000000000000000000000)
 (.leaf 11204034561111059644103632192110258042060000112040345600000000001103283198000000000000001120403456000000000000000000001043333249000011204034561033360139000000000010435066760000112040345600000000001091226829105532263800001120403456000000000010946503250000000000000011204034560000000000109724450200000000000000112040345600000000001105927392000000000000001120403456000000000010908279501018478793000011204034561057416737108016791700000000000000112040345600000000000000000000000000000000001120403456000000000000000000000000000000000011204034560000000000000000000010464361550000112040345600000000000000000000000000000000001120403456000000000000000000001097342457634811204034560000000000000000000010834907900000))))))
 (.node 16 (.node 8 (.node 4 (.node 2 (.node 1 (.leaf 11204034560000000000000000000010912692006349112040345600000000000000000000108147028500001120403456000000000000000000001082212345635011204034560000000000000000000010836795440000112040345600000000000000000000000000000000001120403456000000000010583638281080973447000011204034560000000000000000000010833647950000112040345600000000000000000000107624739100001120403456000000000000000000001076658299000011204034560000000000000000000000000000000000112040345600000000000000000000000000000000001120403456000000000010963235371058386538000011204034560000000000110148515310393290430000112040345610271510931117245119107358119400001120403456110739288711131664731068060830000011204034561099329090111268436410551267930000)
 (.leaf 11204034560000000000111043723910749343680000112040345600000000000000000000000000000000001120403456000000000000000000000000000000000011204034560000000000000000000010630250730000112040345600000000001025034211000000000000001120403456000000000000000000001028537487000011204034560000000000110898957510447886300000112040345610683240081092672815000000000000001120403456000000000000000000000000000000000011204034560000000000110783999510700963476351112040345600000000001074797950109628977363521120403456104352001810826480091096943883000011204034561094006347108247541410848496926353111712665600000000000000000000105951610200001093664768000000000000000000001058038358000011204034560000000000000000000010598693160000))
 (.node 1 (.leaf 11204034560000000000000000000000000000000000112040345600000000000000000000000000000000001120403456104655595610894081791073096231000011204034560000000000000000000010703595590000111935488000000000000000000000106612170100001120403456000000000000000000001084719741000011200102400000000000000000000010289276750000112040345600000000000000000000108549937200001120403456000000000000000000001085212340635411167334400000000000109755372710584435780000112040345600000000000000000000000000000000001120403456000000000000000000000000000000000011204034560994828779108666824910749131000000112040345600000000001098605553106287551100001120403456110568233710939330991073090476000011204034561116696278107488854700000000000000)
 (.leaf 11204034560000000000000000000010829140020000112040345610848160641100218683107503193400001120403456000000000010666660330000000000000011204034560000000000103869757510306109110000112040345600000000001083285334000000000000001120403456000000000010565585990000000000000011204034561100669346109213175000000000000000112040345600000000001109594341103495866100001120403456108283407311031169471051600764000011204034560000000000111382369410296446690000112040345600000000001104654264105196997900001120403456103912358211146441001040807080000011204034560000000000109639777600000000000000112040345600000000000000000000000000000000001120403456000000000000000000001067368539000011204034560000000000000000000000000000000000)))
 (.node 2 (.node 1 (.leaf 11204034561075281041000000000000000000000000112040345600000000001106698096105808355463551120403456000000000011056477371090949114635611204034560000000000109040768111030319230000112040345611109178031081343581109300169763571120403456000000000010284701841088533416635811204034560000000000000000000010843569576359112040345600000000000000000000108635655163601120403456000000000000000000001082721113000011112284160000000000000000000010452915430000111817523200000000000000000000104113866700001120403456105762739200000000001066470017000011204034560000000000000000000010557072170000112040345610353705861108193863107947605300001120403456109896979311132333721081836490000011204034561050936621111508203810735636130000)
 (.leaf 11204034561099778953110786948610481194670000112040345611130677641072415585000000000000001120403456110080937410979890950000000000000011204034561058040816000000000010292788420000112040345600000000000000000000105728482100001120403456000000000000000000001064570991000011204034560000000000000000000000000000000000112040345600000000001033530193000000000000001120403456000000000010760126200000000000000011204034561073863702109287498110289242080000112040345610013705510000000000105865673600001120403456000000000010433146651074027682000011204034560000000000111140609710594841420000112040345600000000000000000000104839561400001120403456000000000011032850861092646405000011204034560000000000000000000010816915740000))
 (.node 1 (.leaf 11204034560000000000000000000000000000000000112040345600000000000000000000000000000000001120403456000000000000000000001073000586000011204034561105859327104547557010759727426361111044198400000000000000000000105305682700001120403456000000000000000000001073311654636211204034560000000000000000000010833785936363112040345600000000000000000000107495216963641120403456000000000010862989411056530513000011204034560000000000000000000010104563110000112040345600000000000000000000106425330700001120403456000000000011174539691086674231000011204034561120066545000000000000000000000000112040345610908390871072247813105322383600001120403456000000000010911809010000000000000011204034561026173987000000000010526238070000)
 (.leaf 11204034560000000000000000000010269401970000112040345610573514071109357704106571585000001120403456000000000000000000001036472328000011204034560000000000000000000010580506330000112040345600000000000000000000105984236800001120403456000000000010250342110000000000000011204034560000000000110751619510576748570000112040345600000000001110164609000000000000001120403456000000000010909810431053141472000011204034560000000000111409307310516543380000112040345610607468470000000000104389719600001120403456000000000000000000001058898513000011204034561069959703111247606410738631820000112040345600000000000000000000105797812300001120403456000000000010616672621034224555000011204034560000000000111666496810697948340000))))
 (.node 4 (.node 2 (.node 1 (.leaf 11204034560000000000110537940710994129290000112040345600000000001077034772109857942200001120403456000000000000000000000000000000000011193548800000000000104564334310749539810000112040345610927682971040751106107620935363651120403456000000000000000000001083029558636611204034560000000000000000000010915590710000112040345600000000000000000000000000000000001120403456107037633100000000000000000000000011204034560000000000000000000010466006290000112040345600000000000000000000103782762500001120403456108186656410555117010000000000000011204034560000000000104190537910507304310000112040345600000000001040945722103864588900001120403456105179155510857868170000000000000011204034560000000000111358393700000000000000)
 (.leaf 11204034560000000000106768105510614942220000112040345600000000001101942332104022022300001120403456000000000011123222900000000000000011204034560000000000109162675610377443420000112040345600000000000000000000108435263563671120403456000000000000000000001069069097000011204034560000000000000000000000000000000000112040345600000000000000000000106965435700001120403456000000000000000000001041042837000011204034560000000000108316684510496634720000112040345600000000001053813847108515127463681120403456106943959210739867711086424048636911204034560000000000000000000010960777196370112040345600000000000000000000107953925363711120403456000000000010568974991087466422637211204034560000000000000000000010580257730000))
 (.node 1 (.leaf 11204034560000000000000000000000000000000000111712665600000000001048914900106107370100001120403456110337123410398786911069409488000011204034560000000000000000000010611631976373112040345600000000000000000000107177624063741120403456000000000010829283981050968459000011204034561043701749000000000000000000000000112040345600000000000000000000103836149400001120403456108379423311130548261088212120000011204034561074732628111245774010760406830000112040345610536571481097867461000000000000001120403456107004365600000000001068143528000011204034560000000000000000000000000000000000112040345610249885761076215624000000000000001120403456000000000000000000001034026139000011204034560000000000000000000000000000000000)
 (.leaf 11204034561090545420105143148210600357560000112040345600000000000000000000104690998000001120403456000000000010690643361031204478000011204034560000000000000000000010664319060000112040345600000000001109277881102910619100001120403456000000000011147660751099598121000011204034561071910096110558697210553728780000111961702400000000001083633251107682300800001120403456000000000000000000001023562711000011204034560000000000000000000010624764690000112040345610364694271088562187109361914963751120403456000000000000000000001087823980637611204034560000000000000000000010981650296377111712665600000000000000000000108651206200001120403456000000000000000000001085459606000011204034560000000000000000000000000000000000)))
 (.node 2 (.node 1 (.leaf 11196170240000000000105439769410749918710000112040345610500714200000000000106587947700001120403456103221781200000000001037715153000010905190400000000000000000000010192358080000112040345600000000000000000000107268448863781120403456000000000000000000001086834900637911204034560000000000000000000010300997586380112040345600000000000000000000107201049400001120403456000000000000000000001059614632000011204034561085921655107016408310601604140000112040345611153044831045113183105756409800001120403456110692025910988802801068739920000011204034560000000000111154207110813383110000112040345610730277861112516172106718199000001120403456000000000000000000000000000000000011204034560000000000000000000000000000000000)
 (.leaf 11204034560000000000000000000010548290900000112040345600000000000000000000103557153700001120403456110330804810835860651049718181000011204034560000000000110564763210356648310000112040345610688418281109848254000000000000001120403456000000000010548439680000000000000011200102401067512578104544872710318036190000111607808010599825781083943839106451305700001120403456106628906611133205351026762954000011204034561069745525110450599510585198040000112040345600000000001100098044108106048700001120403456105030311400000000001058264220000011204034560000000000000000000010516812086381112040345610626298380000000000106690976463821120403456000000000010522065901060296159000011204034560000000000108745782710974977070000))
 (.node 1 (.leaf 11204034560000000000000000000010991053240000112040345600000000000000000000108323041063831120403456000000000000000000001069616175000011204034560000000000106837479310440716760000112040345610511256670000000000106657706700001120403456107477282610091965191074314122638411204034560000000000000000000010727173676385112040345600000000000000000000110026250900001120403456000000000000000000001072432600638611204034561009475691108456501610496719406387112040345600000000000000000000105217642600001120403456111273129310936936041058886518000011204034560000000000000000000010270777210000112040345600000000000000000000106764516700001120403456000000000000000000000000000000000011204034560000000000000000000000000000000000)
 (.leaf 11204034560000000000000000000010336771600000112040345600000000000000000000000000000000001120403456104904244010791742870000000000000011204034560000000000000000000010261368440000112040345600000000000000000000105079576000001120403456000000000011043208170000000000000011204034560000000000105005910610192689960000111358771200000000001107698909109078901363881120403456000000000011021916831021932108000011204034561007925208000000000010697015620000112040345600000000000000000000104491735300001120403456000000000000000000001067160556000011204034561046477976000000000010743550580000112040345610750139650000000000102886150900001120403456000000000011170732311041663107000011204034560000000000000000000010738900860000)))))
 (.node 8 (.node 4 (.node 2 (.node 1 (.leaf 11204034560000000000000000000010972773570000112040345600000000000000000000108872797263891120403456000000000000000000001089493383000011179130880000000000104679090410683204170000112040345611040752431045475570108205487763901120403456000000000000000000000000000000000011204034560000000000000000000010390741120000112040345600000000000000000000103051073800001120403456000000000010849727021036783227000011204034560000000000000000000010427763150000112040345600000000001095622459000000000000001120403456000000000010708309771032300902000011204034561059534592109439457710891572990000112040345611155784801079520317110154027600001120403456107088682011025673361058675826000011204034561079232793110078648610488254070000)
 (.leaf 11204034560000000000000000000000000000000000112040345600000000001073424735000000000000001120403456000000000000000000000000000000000011204034560000000000000000000010314421210000112040345610684113420000000000000000000000001120403456000000000000000000000000000000000011204034560000000000104981751410615630510000111201484800000000000000000000105721945600001120403456000000000010743403510000000000000011204034561055581696105724814300000000000000112040345600000000000000000000105173160563911120403456000000000000000000001062486083639211204034560000000000000000000010437652770000112040345600000000001116907556105988258663931120403456091696478011132752101049636757639411204034561070849340111691416200000000000000))
 (.node 1 (.leaf 11204034561025476861104294556610756857936395112040345600000000000000000000110169366863961120403456000000000000000000001090087063639711204034561062596032000000000010712096490000111411200000000000000000000000108214007900001118961664000000000010384828271068914702000011204034560000000000000000000010613277980000112040345600000000000000000000107826930700001120403456000000000010299465791078328206639811204034561042657132109150900100000000000000112040345600000000000000000000106991020763991120403456000000000000000000001067178861000011204034561059667250000000000000000000000000112040345600000000001094982513000000000000001120403456000000000011057039931068178638000011204034560000000000104501923000000000000000)
 (.leaf 11204034560000000000109495546010449539320000112040345600000000000000000000000000000000001120403456000000000000000000000000000000000011204034560000000000000000000010609393740000112040345600000000000000000000102006107200001120403456000000000000000000000000000000000011204034560000000000000000000010420601360000112040345600000000001038496249000000000000001120403456104921591710840900111045026234000011204034560000000000108074505310735355060000112040345610799824701085465533000000000000001120403456000000000011148392661033253236000011156848640000000000109897533410523045650000111791308810615045231113443559107057801200001120403456106924659511100619011040500450000011091312640000000000108215475910587684460000)))
 (.node 2 (.node 1 (.leaf 11204034560000000000000000000010777910756400112040345610618540420000000000106644491100001120403456000000000011165575281074481570640111204034560000000000000000000010921340236402112040345610320097741046549312109074921664031120403456000000000000000000001078027982000011204034560000000000000000000010769675876404112040345610546614321107339903105110567600001120403456000000000011024604331067641096000011204034560000000000109947204400000000000000112040345600000000001031342444000000000000001120403456110134710710846168151083619445000011204034561098040073109680022010797829820000112040345600000000001096656670105867266500001120403456000000000010995685651069159655000011204034560000000000000000000000000000000000)
 (.leaf 11204034560000000000000000000000000000000000112040345600000000001033624145000000000000001120403456106911767110611471680000000000000011167334401032772802110295200610571084320000111935488011069434061091827034000000000000001120403456000000000010253294901094023147640511204034561117508497108004796010939890720000112040345600000000000000000000108798525864061120403456000000000000000000001096288975640711185684480000000000105651497910805990170000112040345600000000000000000000109094190664081120403456000000000000000000001059852731640911204034560000000000000000000010807016386410112040345600000000001108046407104700159000001120403456000000000000000000000000000000000011204034560000000000000000000000000000000000))
 (.node 1 (.leaf 11204034560000000000000000000010246695880000112040345600000000000000000000103754684700001120403456000000000000000000000000000000000011204034561059467936109829685210737811970000112040345611012968601017692501000000000000001120403456106840347311086442001050186149000011204034560000000000000000000010669628540000112040345600000000000000000000000000000000001120403456000000000010850354070000000000000011204034560000000000000000000000000000000000112040345610678857370000000000000000000000001120403456000000000000000000000000000000000011204034560000000000000000000000000000000000112040345600000000000000000000000000000000001096810496000000000010847428541050587914000011204034560000000000110085464410635013026411)
 (.leaf 11204034560000000000000000000010371110650000112040345600000000000000000000105842335200001120403456107743284100000000001041605157000011204034560000000000111520590100000000000000112040345600000000001114009004103969424400001120403456000000000010967211571077528876641211204034561047983764110139660011003849990000112040345600000000000000000000109375094664131120403456000000000000000000001081667711000011204034560000000000000000000010822674236414112040345600000000000000000000103109200700001120403456000000000000000000001076362062000011204034560000000000000000000000000000000000112040345600000000000000000000000000000064151120403456000000000000000000000000000000000011204034560000000000110087430510384827770000))))
 (.node 4 (.node 2 (.node 1 (.leaf 11204034561111125582105873963710804353120000112040345600000000001103989886103221426000001120403456104837333111110614041047710014000011204034560000000000000000000000000000000000112040345600000000000000000000000000000000001120403456000000000000000000000000000000000011204034560000000000000000000000000000000000112040345600000000001008659648000000000000001117913088000000000000000000001047283931000011200102401075005559111466176810818658500000112040345610678177970000000000000000000000001120403456101687699411170561131053618597000011204034560000000000111694791310680970200000112040345600000000001114055980108214606500001120010240000000000000000000001090139496000011175198720000000000000000000010637249060000)
 (.leaf 11185684480000000000000000000010676805940000110913126400000000000000000000100098024500001120403456109287851410408651921055691326641611204034561062150311000000000000000000006417112040345600000000000000000000106703917200001120403456000000000000000000001041185256000011204034560000000000000000000000000000000000112040345600000000001090456125105179077800001120403456106778451111111449231053575227000011204034560000000000000000000000000000000000112040345600000000000000000000000000000000001120403456000000000010251147410000000000000011204034560000000000000000000000000000000000112040345600000000000000000000000000000000001120403456000000000000000000000000000000000011200102400000000000102503421110511642860000))
 (.node 1 (.leaf 11091312640000000000108720344310498853120000112040345600000000000000000000105863234400001120403456101620375810727653901064697520000011204034560000000000111355798500000000000000112040345610326917351026537449107692502864181120403456000000000000000000001094047216641911204034560000000000110756841410827566786420112040345611193596931079889415108317379400001120403456000000000000000000001087583569642111204034560000000000000000000010225221640000112040345610581270340000000000103270166800001120403456000000000010415295691049502901000011204034560000000000108405142300000000000000112040345611008921970000000000105432426400001120403456107601848811062232480000000000000011204034560000000000000000000000000000000000)
 (.leaf 11204034560000000000000000000010347752590000112040345600000000000000000000102644364864221120403456000000000010742820501047101209000011204034560000000000107835639710358909360000112040345600000000000000000000000000000000001120403456000000000000000000000000000000000011204034560000000000109855805310430634770000111489843210548750391053605809107362250600001120403456105218692700000000001049572722000011204034560000000000000000000010924174420000110048051210990956621076432014000000000000001120403456106823861210491564921058508010000011193548800000000000103346308410887961680000112040345600000000000000000000108627835300001119354880106277608500000000001065431392000011204034560000000000000000000010494108600000)))
 (.node 2 (.node 1 (.leaf 11204034561055456068109375494600000000000000112040345610459733840000000000104022487864231120403456000000000000000000001038170245000011204034560000000000000000000010489174310000112040345600000000000000000000000000000000001120403456110783743400000000000000000000000011204034560000000000000000000000000000000000112040345600000000001051042251000000000000001120403456000000000010597328491066099330000011204034560000000000000000000000000000000000111568486410609605551035852159103788633700001120403456106903502600000000001042218800000011204034560000000000000000000000000000000000112040345600000000001098648021102426095500001120403456000000000011080163921052477704000011204034560000000000000000000010683501706424)
 (.leaf 11204034560000000000111626072910868665750000112040345600000000000000000000109492077700001120403456106538515110667255921066519732000011204034561044827165106781527210857191960000112040345600000000001105658695108890358764251120403456000000000010409255901088008823000011156848640000000000000000000010506112896426112040345600000000000000000000106009841300001120403456000000000000000000000000000000000011204034560000000000000000000010651251390000112040345600000000001110708427102725389000001120403456111094697010997871941059353145000011204034560000000000108524260610375104890000112040345600000000000000000000000000000000001120403456000000000000000000000000000000000011204034560000000000000000000000000000000000))
 (.node 1 (.leaf 11204034560000000000000000000000000000000000112040345600000000000000000000000000000000001120403456000000000000000000000000000000000011204034561067149871000000000010424612490000112040345600000000000000000000106630495200001120403456000000000010453547751043877730000011204034560000000000000000000010532472780000112040345600000000000000000000104944216800001120403456000000000011166771581081379100000011204034560000000000111561961610618094766427112040345600000000001049367885107984881164281120403456104043408410825886601084698921642911204034560000000000000000000010770566840000112040345600000000000000000000104737446300001120403456000000000000000000001055305035000011204034560000000000000000000010364453570000)
 (.leaf 11204034560000000000000000000000000000000000112040345600000000001090570315107032763800001120403456000000000011095884691044982652000011204034560000000000000000000000000000000000112040345600000000000000000000000000000000001120403456104585695010654714951052168753000011204034560000000000106745204610407891250000112040345600000000001066384176000000000000001120403456000000000000000000000000000000000011204034560000000000000000000010652691470000112040345600000000000000000000101166106400001120403456000000000011034885621085904176643011204034560000000000111307810410916088846431112040345600000000001113573399108365568200001120403456000000000011170565591057775555000011204034561089926905108794247910924998016432)))))))))))
 (.node 512 (.node 256 (.node 128 (.node 64 (.node 32 (.node 16 (.node 8 (.node 4 (.node 2 (.node 1 (.leaf 11204034561025409752110396618810801146556433111896166400000000000000000000108820264900001120403456000000000010753062991064412978000011204034560000000000000000000010386217930000112040345600000000000000000000106389417700001120403456000000000000000000001076996651000011204034560000000000000000000010805221090000112040345600000000000000000000106443496900001120403456109365711310345905131028033747643411204034560000000000000000000010658097150000112040345600000000000000000000000000000000001120403456000000000000000000001042675024000011204034560000000000000000000000000000000000111607808011092577961104388869106081820200001120403456000000000000000000001060897718000011204034560000000000000000000010600343306435)
 (.leaf 11204034561017066509000000000010710664820000112040345600000000001105376628105964855100001120403456000000000011043335050000000000643611204034560000000000110664802610615795526437112040345600000000001104683834108858226964381120403456000000000010575752991102483037643911204034561071184112000000000010764018720000112040345600000000000000000000000000000000001120403456000000000000000000001066221419000011204034560000000000000000000000000000000000112040345600000000000000000000103850138100001120403456000000000000000000000000000000000011204034560000000000000000000010876860330000112040345610319374310000000000106001486900001120403456106680507410127398671074180622644011204034560000000000000000000010605417810000))
 (.node 1 (.leaf 11204034560000000000000000000000000000000000112040345600000000000000000000000000000000001120403456103047217610807685411075479017644111204034560000000000103901969800000000000000112040345600000000001016833507000000000000001120403456000000000010359192680000000000000011204034561050889377110196765500000000000000112040345600000000000000000000104421232000001120403456000000000000000000001050893190644211204034561058470531000000000010796910706443112040345610030391460000000000103837630500001120403456000000000011072178231090591485000011204034560000000000110766241910819739050000112040345600000000001111799837108753267464441120403456000000000011145563601082253776644511204034560000000000110658789010883976606446)
 (.leaf 11181752321115320377107442172110895444046447112040345610992718191095862688109967865764481120403456000000000011036435421088702802644911204034561045757965101683350710788492150000112040345600000000000000000000000000000000001120403456000000000000000000001063462127000011204034560000000000000000000000000000000000112040345600000000000000000000000000000000001120403456000000000000000000000000000000000011204034560000000000000000000000000000000000112040345600000000000000000000103422126700001120403456000000000000000000000000000000000011204034561041046184107184432100000000000000112040345600000000001057833668106100038800001120403456107390736910725984570000000000000011204034561092678981110032411700000000000000)))
 (.node 2 (.node 1 (.leaf 11204034560000000000000000000000000000000000111673344011024405931110702608106116851100001120403456000000000010334899270000000000000011204034561056297647110795227110604916240000112040345600000000001113916781109122719400001120403456110547737010865845731087535448000011204034561075896283109220336810880090076450112040345611158663771085022195109169784264511120403456107554186810916731031065361086645211204034560000000000000000000010891374120000112040345600000000000000000000000000000000001120403456000000000000000000000000000000000011204034560000000000000000000000000000000000112040345600000000000000000000000000000064531120403456000000000000000000000000000000000011204034560000000000000000000010541276440000)
 (.leaf 11204034560000000000000000000010494982246454112040345600000000000000000000107977873400001120403456000000000000000000001065771191000011204034560000000000000000000000000000006455112040345600000000000000000000102648918400001120403456000000000010251684281045214016000011204034560000000000000000000010183185370000112040345610905057671091698688105331356100001109917696110035024811010838631057809582000011204034561053666174000000000010756745126456112040345610733933110000000000101829779600001120403456106994145711077788111056828043000011204034561069122905110793358009716123830000112040345600000000001092589978107097937664571120403456000000000010990552881080795663645811204034560000000000111600475810921489680000))
 (.node 1 (.leaf 11204034561019254258111576002110945654120000112040345610155380381116899888107411794100001116340224000000000011120799650000000000000011204034560000000000107696808311001254960000112040345611157138981068524110108258045664591119354880000000000000000000001065707443000011204034560000000000000000000010257731900000112040345600000000000000000000102370925300001120403456000000000000000000000000000000000011204034560000000000000000000010471896770000112040345600000000000000000000103231359400001120403456000000000000000000000000000000000011204034560000000000000000000000000000000000112040345600000000000000000000000000000000001120403456000000000000000000001081648350000011204034560000000000000000000010566404220000)
 (.leaf 11204034560000000000000000000010633958340000112040345600000000001048857857000000000000001120403456000000000000000000000000000000000011204034560000000000103000026600000000000000112040345610323267971038429140000000000000001120403456000000000000000000000000000000000010905190401036761216109031043000000000000000111712665600000000000000000000107767750000001120403456000000000000000000001050411446000011204034560000000000109187264710422246346460112040345610512947141105662155108429244064611118568448000000000011131949681082187331000011204034561029200060108601939110872335246462112040345600000000000000000000109176677300001120403456109229282710953303261097982169000011204034561049590820000000000010427625836463))))
 (.node 4 (.node 2 (.node 1 (.leaf 11204034560000000000000000000010325468700000112040345600000000000000000000106659446600001120403456100895814810992602321049882179000011204034560000000000000000000000000000000000112040345600000000000000000000000000000000001120403456000000000000000000001072185735000011204034560000000000000000000000000000000000112040345600000000000000000000105804724100001120403456000000000000000000000000000000000011204034560000000000104919340210624188406464112040345600000000001025034211000000000000001120403456000000000010776337191038534616000011204034560000000000000000000000000000000000112040345610667682820000000000000000000000001120403456101733333411014101270000000000000011204034560000000000000000000000000000000000)
 (.leaf 11204034561088893909104785122400000000000000111961702400000000000000000000103210156200001120403456000000000011077652051020102753000011204034560000000000110804585710439395170000112040345600000000001107952114106569935200001120403456000000000010992556181095926824000011204034560000000000110852080910911351366465112040345600000000001109250644109125665264661112801280000000000011100204831073726999000011204034560000000000000000000010896805656467112040345611018176901093036356108519104164681120403456000000000010896464151089953838000010968104960000000000000000000010701763430000111607808000000000000000000000000000000000001120403456000000000000000000001047219112000011204034561112639941101575976610193316630000))
 (.node 1 (.leaf 11204034560000000000000000000010324374980000112040345600000000000000000000108091594500001120403456000000000000000000000000000000000011204034560000000000000000000010570376560000112040345600000000000000000000000000000000001120403456000000000010386573101084575869000011204034560000000000104656944500000000000000112040345600000000001025114741000000000000001120403456107416696311076043800000000000000011204034560000000000000000000010483098720000112040345600000000000000000000000000000000001120010240000000000000000000000000000000000011204034560000000000000000000010667912030000112040345610647885791107923960105473306100001120403456000000000011077317301076684442000011204034560000000000110790372210551029670000)
 (.leaf 11204034560000000000110765206410768193140000112040345600000000001095615749105354418264691120403456000000000011171029061032015076000011204034561070653407101844412010819298930000112040345600000000001029946579108157380900001112801280000000000000000000001075584176000011204034560000000000000000000000000000000000112040345600000000000000000000108037345600001120403456000000000000000000001066475777000011204034560000000000000000000000000000000000112040345600000000000000000000103084732200001120403456000000000000000000000000000000000011204034560000000000000000000010466637430000112040345600000000000000000000105888781964701120403456000000000000000000001067303728000011204034560000000000107928208010700664620000)))
 (.node 2 (.node 1 (.leaf 11204034560000000000000000000000000000000000112040345600000000001029194960000000000000001120403456000000000000000000000000000000000011204034560000000000000000000000000000000000112040345600000000000000000000000000000000001120403456110324822610495658561055094411647111204034561058177114000000000010758713730000112040345600000000001108027847000000000000001120403456000000000011070421861074612850000011204034560000000000110518662610908698986472112040345600000000001074593687109793570800001120403456000000000011069382721078441574000011204034560000000000111700145610650668310000112040345600000000001016189262107378914464731120403456000000000010444622271069674186647411204034560000000000000000000010667828630000)
 (.leaf 11204034560000000000105298840810744048530000112040345600000000000000000000000000000000001120403456000000000000000000000000000000000011204034560000000000000000000010364775860000112040345600000000000000000000105291264000001120403456000000000000000000000000000000000011204034560000000000000000000000000000000000112040345600000000000000000000102920377100001120403456000000000000000000000000000000000011204034560000000000000000000010604488410000112040345600000000000000000000106704523600001120403456000000000000000000001066401781000011204034560000000000000000000010645502240000112040345600000000000000000000000000000000001120403456000000000010167798200000000000000011204034560000000000000000000000000000000000))
 (.node 1 (.leaf 11204034561112860735108090108100000000000000112040345600000000000000000000000000000000001111228416000000000010251415851046621105000011204034560000000000000000000010346667670000112040345610495431391108026353104159893264751120403456000000000011051252841096356148647611204034561051200292111707525000000000000000112040345610647413681016189262107479797764771120403456000000000000000000001083444050000011204034560000000000000000000010736214356478112040345600000000000000000000106393476700001102053376000000000010719256901067887847000011204034560000000000000000000010430130566479112040345600000000000000000000105230448500001120403456000000000000000000001065980951000011204034560000000000000000000010475400010000)
 (.leaf 11204034561093640523102311489710286078530000112040345600000000000000000000000000000000001120403456000000000000000000001076362045000011204034560000000000000000000010666229610000112040345600000000000000000000105833875100001120403456000000000000000000000000000000000011204034560000000000103491263510364029620000112040345600000000000000000000000000000000001120403456000000000000000000000000000000000011204034561071143511102182640700000000006480112040345600000000000000000000106929338500001120403456000000000000000000001048498538648111204034561056042901110779537800000000006482112040345600000000000000000000105009242164831120403456000000000010945653901093920196648411204034560000000000111623392510569385810000)))))
 (.node 8 (.node 4 (.node 2 (.node 1 (.leaf 11204034561059796367111704131500000000000000112040345600000000000000000000108686095400001120403456000000000000000000001082222465648511204034560000000000000000000010774983726486112040345610652322690000000000108454289164871120403456103851289200000000001078915408648811204034560000000000000000000010844618990000112040345600000000000000000000000000000000001120403456000000000000000000001041356471000011204034560000000000000000000010518089100000112040345610989389340000000000000000000000001120403456000000000000000000001033239382000011204034560000000000000000000000000000000000112040345600000000000000000000000000000000001120403456000000000000000000001074319087000011204034560000000000000000000009771352190000)
 (.leaf 11204034560000000000000000000010181127260000112040345610438208000000000000102833454600001120403456000000000000000000001039976099000011204034560000000000000000000010458699240000112040345600000000000000000000000000000000001120403456000000000010439186451037734516000011204034560000000000000000000000000000000000112040345600000000000000000000000000000000001120403456000000000011079959971034025278000011204034560000000000110652072910935858636489112040345600000000001116568565105875140500001114898432105166965200000000001087246829000011204034560000000000000000000010180223920000112040345600000000000000000000000000000000001120403456000000000000000000000000000000000011204034560000000000000000000010320348580000))
 (.node 1 (.leaf 11204034560000000000000000000000000000000000112040345600000000000000000000105117145864901120403456000000000000000000001053405565000011204034560000000000000000000000000000000000112040345600000000000000000000106013249800001120403456000000000000000000001075676834649111204034560000000000000000000000000000000000112040345600000000000000000000000000000000001120403456000000000010340670641041734645000011204034561084119319000000000010493244640000112040345600000000000000000000000000000000001120403456000000000000000000001063628790000011204034560000000000103852309200000000000000112040345600000000000000000000000000000000001120403456000000000000000000000000000000000011204034560000000000000000000000000000000000)
 (.leaf 11204034560000000000000000000000000000006492112040345600000000000000000000000000000000001120403456000000000000000000000000000000000011204034560000000000000000000010519581096493112040345610716146910000000000104037089400001120403456000000000011079882381046645896649411204034560000000000110794270300000000006495112040345600000000001107849878107414957400001120403456000000000011080664611026653858000011204034560000000000106674656410427755816496112040345600000000001116929157107163643800001120403456000000000000000000001087966357000011204034560000000000000000000010781033746497112040345600000000000000000000104458617500001120403456000000000000000000001017314910000011204034560000000000000000000010344155946498)))
 (.node 2 (.node 1 (.leaf 11204034560000000000000000000010275198600000112040345600000000000000000000102803533200001120403456108796741610309397911020303817000011204034560000000000000000000010471218760000112040345600000000000000000000000000000000001120403456000000000000000000001025662104000011204034560000000000000000000010631516420000112040345600000000000000000000106307117200001120403456000000000000000000000000000000000011204034560000000000000000000000000000000000112040345600000000000000000000000000000000001120403456000000000000000000001029559876000011204034560000000000000000000010288539200000112040345600000000000000000000000000000000001120403456000000000000000000001057482791000011204034561104029721000000000000000000000000)
 (.leaf 11204034560000000000000000000010659462646499112040345600000000001107675028103490453300001120403456000000000011079270010000000000650011204034560000000000111699903110664759930000112040345600000000001116949185106944591700001120403456000000000011170843071047597146000011204034560000000000110827027810322559760000112040345600000000000000000000106839883500001120403456000000000000000000001077785099650111091312640000000000104123429010612211520000111712665610657283130000000000108255960900001120403456000000000000000000000000000000000011204034560000000000000000000010313556740000112040345600000000000000000000000000000000001120403456000000000000000000000000000000650211204034560000000000000000000010691786070000))
 (.node 1 (.leaf 11204034560000000000000000000010438580880000112040345600000000000000000000000000000065031120403456000000000000000000001076486867000011204034560000000000000000000010560397020000112040345600000000000000000000000000000000001120403456000000000000000000000000000000000011204034560000000000000000000010247083460000112040345600000000000000000000108167763500001120403456000000000000000000001055533676000011204034560000000000000000000010645060930000112040345600000000000000000000000000000000001120403456000000000010704610391023233982000011204034560000000000104960947700000000000000112040345611037021731041630233105405174700001120403456000000000000000000001054649817650411204034560000000000106453281000000000000000)
 (.leaf 11204034560000000000000000000000000000000000112040345600000000000000000000000000000000001120403456000000000000000000000000000000000011204034560000000000109150732310614620106505112040345600000000001105418309104114092800001120403456000000000011080577321033139370000011204034560000000000111574794910735415156506112040345610581569311080349950105029851600001120403456106588948300000000001074442785000011204034560000000000000000000000000000000000112040345600000000000000000000103676709400001120403456000000000000000000000000000000000011204034560000000000000000000010308414860000112040345600000000000000000000000000000000001120403456000000000000000000001026120287000011204034561069099384102879230710651532260000))))
 (.node 4 (.node 2 (.node 1 (.leaf 11204034560000000000000000000010436795520000112040345600000000000000000000000000000000001120403456000000000000000000001020961260000011204034561099909105100898177010268011320000112040345600000000000000000000108229669300001120403456000000000000000000001051817463000011204034560000000000110201845810512125060000112040345600000000000000000000106849970600001120403456000000000000000000000000000000000011112284160000000000000000000010328916610000112040345600000000001101827251103071413065071120403456000000000011082348891069481944650811204034560000000000111442570800000000000000112040345600000000001092303297109708266565091120403456000000000010936667601061383013651011204034560000000000000000000000000000006511)
 (.leaf 11204034560000000000106970354810750664370000112040345609794130680000000000107652084500001120403456000000000000000000000000000000000011204034560000000000000000000010258614440000112040345600000000000000000000000000000000001120403456000000000000000000001061410974000011204034560000000000000000000010321823580000112040345600000000000000000000101816708000001120403456000000000000000000001024984161000011204034560000000000000000000000000000000000112040345600000000000000000000104443267300001120403456000000000000000000000000000000000011204034560000000000000000000000000000006512112040345600000000000000000000000000000000001120403456000000000000000000000000000000000011204034560000000000000000000000000000000000))
 (.node 1 (.leaf 11204034560000000000106864574510495925866513112040345600000000001107706275107339345365141120403456000000000011047027081076185811651511204034561057738860000000000010430158140000112040345600000000000000000000000000000000001120403456000000000000000000001033669270651611204034560000000000102511474110744926456517112040345600000000000000000000107251361600001120403456000000000000000000000000000000000011204034560000000000000000000010250870570000112040345600000000000000000000000000000000001120403456000000000000000000001036322215000011204034560000000000000000000000000000000000112040345600000000000000000000103654380300001120403456105071754500000000000000000000000011204034560000000000000000000010452211430000)
 (.leaf 11204034560000000000000000000000000000000000112040345610559695180000000000000000000000001120403456000000000000000000001055750802651811204034560000000000110728823410863432796519112040345600000000001070907313107875155365201120403456105976474200000000001089337349652111204034560000000000109899908410720365320000111856844810573739551100376231106819225700001120403456000000000000000000000000000000000011204034560000000000000000000000000000000000112040345600000000001054978186105119396465221120403456000000000000000000000000000000000011204034560000000000000000000000000000000000112040345600000000000000000000000000000000001120403456000000000000000000001050802766000011163402240000000000000000000010754639220000)))
 (.node 2 (.node 1 (.leaf 11204034560000000000000000000000000000000000112040345600000000000000000000000000000000001120403456000000000000000000000000000000000011204034560000000000000000000000000000000000112040345600000000000000000000105556673100001120403456000000000000000000000000000000000011204034560000000000107367136010218057860000112040345600000000000000000000000000000000001120403456000000000000000000001025337055000011204034560000000000000000000000000000006523112040345600000000000000000000000000000000001120403456108711505800000000000000000000000011204034560000000000000000000000000000000000112040345610989024640000000000000000000000001120403456000000000000000000001062717415000011204034561042995831102511474110735496960000)
 (.leaf 11204034560000000000105963050800000000000000112040345600000000000000000000000000000065241120403456000000000011080240461025106843652511204034560000000000110845752810782305506526112040345600000000000000000000000000000000001120403456000000000000000000001062437130652711204034560000000000000000000010239087066528112040345600000000000000000000000000000000001120403456000000000000000000000000000000652911179130880000000000000000000010603270356530112040345610563232820000000000105081562700001120403456107581290000000000001046928370653111204034560000000000000000000000000000000000112040345611038843201032778573104873019300001111052675000000000000000000001025607537000011204034560000000000000000000000000000000000))
 (.node 1 (.leaf 11204034560000000000000000000000000000000000112040345600000000000000000000104856469600001120403456000000000010318256280000000000000011204034560000000000000000000000000000000000112040345600000000000000000000000000000000001120403456000000000000000000001011904278000011204034560000000000000000000010563206440000112040345600000000001016833507000000000000001120403456000000000000000000001053107005000011204034560000000000000000000000000000000000112040345600000000001092829472104245426700001120403456000000000000000000000000000000000011204034560000000000108394866300000000000000112040345600000000000000000000000000000000001120403456000000000000000000001023666262000011204034560000000000110526028810404370990000)
 (.leaf 11204034560000000000000000000010750100676532112040345600000000001086427287107603055065331120403456000000000000000000001042172024000011204034561053430454000000000000000000000000112040345600000000000000000000000000000000001120403456000000000000000000000000000000653411204034560000000000000000000000000000000000112040345600000000000000000000000000000000001105199104000000000000000000001066209545653511200102400000000000000000000010759973406536112040345610550946530000000000105420189400001120403456000000000000000000001020009379000011204034560000000000000000000000000000000000112040345610375833000000000000108874212800001118875825111811939410810466141073865581000011204034560000000000000000000010243201426537))))))
 (.node 16 (.node 8 (.node 4 (.node 2 (.node 1 (.leaf 11204034560000000000000000000000000000000000112040345600000000000000000000106309311365381120403456000000000000000000001055826819653911204034560000000000000000000010329697520000112040345600000000000000000000105756676865401120403456000000000000000000000000000000000011204034560000000000000000000000000000000000112040345610439343480000000000000000000000001120403456000000000010265642930000000000000011204034560000000000000000000000000000000000112040345600000000000000000000000000000000001120403456000000000000000000001021539471000011204034560000000000000000000000000000000000112040345600000000000000000000102672244600001120403456000000000010577883690000000000000011204034560000000000000000000000000000000000)
 (.leaf 11204034560000000000106355469810280749610000112040345610683009231109870982106102210465411120403456106639251411079813170000000000654211204034560000000000103798622110644389326543112040345610548095410000000000000000000000001120403456000000000000000000000000000000000011204034560000000000000000000000000000006544112040345600000000000000000000000000000000001109131264000000000000000000001086210993000011204034560000000000000000000010282037280000112040345600000000000000000000000000000000001120403456000000000000000000000000000000000011204034561057781071104024779000000000006545112040345600000000000000000000000000000000001120403456000000000000000000000000000000000011204034561107427523103718091510498133380000))
 (.node 1 (.leaf 11204034561048206230000000000010353169420000112040345600000000001080148623000000000000001120403456000000000000000000000000000000654611204034560000000000107640143210360295140000112040345600000000000000000000106193087365471120403456000000000000000000001076249608654811204034561070484628110829830110771532366549112040345600000000000000000000000000000000001120403456000000000000000000001063847402000011204034560000000000000000000010236176760000112040345600000000000000000000000000000000001120403456000000000000000000000000000000655011204034560000000000000000000010594520600000112040345610543267260000000000000000000000001120403456107599241210168335070000000000000011204034560000000000000000000000000000000000)
 (.leaf 11204034561078011110106249102310514510806551112040345600000000000000000000000000000000001120403456000000000000000000001033188019000011204034560000000000000000000000000000000000112040345610825069190000000000104232534565521120403456000000000000000000001042125352000011204034560000000000000000000000000000000000112040345600000000000000000000000000000000001120403456106530736410603955490000000000655311204034560000000000000000000010248838550000112040345600000000000000000000104021624900001120403456000000000011080401941051870257000011204034561057146540108257439900000000006554112040345610664205661102087245105408837265551120403456000000000000000000000000000000655611204034560000000000110230099710470632866557)))
 (.node 2 (.node 1 (.leaf 11204034561069062013110826438010751906966558112040345600000000000000000000000000000000001120403456000000000000000000000000000000000011204034560000000000000000000000000000000000112040345600000000000000000000105993509400001120403456000000000000000000000000000000000011204034560000000000000000000010327519760000112040345600000000000000000000000000000000001120403456000000000000000000000000000000000011204034560000000000000000000010424794916559112040345600000000000000000000000000000000001120403456000000000000000000000000000000000011204034560000000000102511474110301878280000112040345600000000000000000000103573082600001120403456000000000000000000000000000000000011204034560000000000000000000010239005370000)
 (.leaf 11204034560000000000000000000000000000000000112040345600000000000000000000000000000000001112801280000000000010366037790000000000000011204034560000000000108739826800000000006560112040345600000000000000000000000000000000001120403456105923922911081880171051311985656111204034560000000000000000000010763457076562112040345600000000001099192127105881377965631120403456000000000010619071761046746858000011204034560000000000000000000010277764610000112040345600000000000000000000000000000000001120403456000000000000000000001051051594000011204034560000000000000000000000000000000000112040345600000000000000000000000000000000001120403456000000000000000000001041750661000011204034560000000000000000000000000000006564))
 (.node 1 (.leaf 11204034560000000000000000000000000000000000112040345600000000000000000000000000000000001120403456000000000011030407151050952802000011204034560000000000109201032510539976866565111791308810432189010000000000105796553100001120403456106315603800000000000000000000000011204034560000000000000000000000000000006566112040345610360686530000000000000000000065671114112000000000000000000000001055273383000011204034560000000000000000000010447680656568112040345600000000000000000000000000000065691120403456000000000000000000001058622436657011204034560000000000000000000000000000006571112040345600000000000000000000000000000000001120403456000000000000000000000000000000000011204034560000000000000000000000000000006572)
 (.leaf 11204034560000000000000000000000000000000000112040345600000000000000000000000000000000001120403456000000000000000000000000000000000011204034560000000000000000000010311114680000112040345600000000000000000000000000000000001120403456000000000000000000001077431068000011204034561072723220000000000000000000000000112040345600000000001079833631105387408965731120403456000000000010661778161012474342657411204034560000000000000000000000000000000000112040345610513815531083621297100691386700001117519872000000000000000000001032630777000011204034560000000000000000000010327294136575112040345600000000000000000000000000000000001120403456102507501300000000000000000000657611204034560000000000000000000000000000000000))))
 (.node 4 (.node 2 (.node 1 (.leaf 11204034560000000000000000000000000000000000112040345610345829970000000000104683194500001120403456000000000000000000000940203890000011204034560000000000104874712800000000000000112040345600000000000000000000000000000000001120403456106552163400000000001020067021657711196170240000000000000000000010285123960000112040345600000000000000000000101014976800001120403456106643906310543607841063006374000011204034560996349198109069750810618294776578112040345610620989391097896192106055840565791120403456000000000010945393851062984860658011204034560000000000110791824510679829836581112040345600000000000000000000000000000000001120403456000000000000000000000000000000000011204034560000000000103850967000000000000000)
 (.leaf 11204034561106375825105030405300000000000000112040345610829976860000000000000000000000001120403456000000000000000000000000000000000011204034560000000000000000000000000000000000112040345600000000000000000000000000000000001120403456000000000000000000000000000000000011204034560000000000000000000000000000006582112040345600000000000000000000000000000065831120403456000000000000000000000000000000000011083448320000000000107830606610483085050000112040345600000000001079983368104823614965841120403456000000000010774730770000000000000011204034560000000000109155178310454985026585112040345600000000000000000000000000000065861120403456000000000011015832991057024929000011204034560000000000106636572100000000000000))
 (.node 1 (.leaf 11204034560000000000000000000010325050370000112040345600000000000000000000102357604300001120403456106485751600000000000000000000000011204034560000000000110065903210577631406587112040345600000000000000000000103581278165881120403456000000000010823141431042663967000011204034561077134295107529455510463272316589112040345600000000000000000000103860188765901120403456101501619900000000001034103480000011204034560000000000000000000010320218046591112040345600000000000000000000000000000065921120403456000000000000000000001050238341000011204034560000000000000000000010643725610000112040345600000000000000000000000000000000001120403456000000000000000000000000000000659311204034560000000000000000000010138552790000)
 (.leaf 11204034560000000000000000000000000000006594112040345600000000000000000000000000000000001120403456000000000000000000000000000000000011204034561067457163104054306910749377420000112040345600000000000000000000100531061500001120403456000000000000000000000000000000000011204034560000000000000000000010297246880000112040345600000000000000000000104509978500001120403456000000000000000000000000000000659511204034560000000000109114556400000000006596112040345600000000000000000000000000000065971120403456000000000000000000001061510414000011204034561053857098105861213110282920690000112040345610550199611048817592000000000000001120403456000000000000000000000000000000659811075584000000000000000000000000000000000000)))
 (.node 2 (.node 1 (.leaf 11204034560000000000000000000000000000000000110906483700000000000000000000000000000000001120403456000000000000000000000000000000000011204034560000000000000000000000000000006599112040345600000000001016833507000000000000001120403456000000000000000000000000000000000011204034560000000000000000000010468096760000112040345600000000000000000000000000000000001120403456000000000000000000000000000000000011204034560000000000000000000000000000000000112040345610305548540000000000000000000066001120403456000000000000000000000000000000000011204034560000000000099521103110302344616601112040345611121090591054625864000000000066021120403456000000000000000000000000000000000011204034561048025238000000000000000000000000)
 (.leaf 11204034561057105604107644631100000000000000112040345610299447000000000000000000000066031120403456000000000000000000001027801974000011204034560000000000105427354300000000000000107793612800000000000000000000000000000000001120403456000000000000000000000000000000000011204034560000000000000000000010746417020000112040345600000000000000000000000000000066041120403456000000000000000000000000000000000011204034560000000000000000000000000000000000112040345610516287820000000000107609228900001120403456000000000010360266420000000000000011204034560000000000000000000000000000000000112040345600000000000000000000000000000000001120403456000000000000000000000000000000000011204034560000000000000000000000000000006605))
 (.node 1 (.leaf 11204034560000000000000000000000000000006606112040345600000000000000000000000000000000001120403456000000000010979508221011415728000011204034561118249598104159667810505572986607112040345600000000000000000000000000000000001120403456000000000000000000001033281841000011204034561059774876109177408110492530616608109681049600000000000000000000105850942700001109131264105058067600000000001053160270000011204034560000000000000000000000000000006609112040345600000000000000000000105161942100001120403456000000000000000000000000000000000011204034560000000000000000000000000000000000112040345600000000000000000000104296289700001120403456000000000010313692870000000000000011204034560000000000000000000000000000000000)
 (.leaf 11204034561106259182000000000000000000000000112040345600000000000000000000000000000000001120403456000000000000000000000000000000000011204034560000000000000000000010421283700000112040345600000000000000000000000000000000001120403456105773652810582832970000000000661011204034560000000000104893838800000000000000112040345600000000000000000000101587831366111120403456000000000000000000001037951797000011204034561057218783106324935310631183176612112040345600000000000000000000000000000066131120403456106645055510602764300000000000661411204034560000000000000000000000000000000000110519910400000000000000000000102557794700001120403456000000000000000000000000000000000011204034560000000000000000000000000000000000)))))
 (.node 8 (.node 4 (.node 2 (.node 1 (.leaf 11204034560000000000000000000000000000000000112040345600000000001016833507000000000000001120403456000000000000000000000000000000000011204034560000000000000000000000000000000000112040345600000000000000000000000000000000001120403456000000000000000000000000000000000011204034560000000000000000000000000000000000112040345600000000001085134393103619948700001120403456000000000010848854611012332106661511204034560000000000105569960600000000000000112040345600000000000000000000000000000000001120403456000000000000000000000000000000000011204034561070952201106455629810399537406616112040345600000000001094070147105557865800001120403456000000000010738236131019209838661711175198720000000000000000000009944751350000)
 (.leaf 11204034560000000000000000000000000000006618112040345600000000000000000000104772668700001120403456000000000000000000000000000000000011204034560000000000000000000000000000000000112040345600000000000000000000000000000000001120403456000000000000000000000000000000000011204034560000000000000000000000000000000000112040345600000000000000000000000000000000001120403456000000000000000000000000000000000011204034560000000000000000000010362350550000112040345600000000000000000000104709583666191118961664106000294500000000001033991208662011204034560000000000104900549710559362226621112040345600000000001080148623000000000000001120403456106168044910718879421032121772000011204034561069275217109100201400000000000000))
 (.node 1 (.leaf 11204034560000000000000000000010336811266622112040345600000000000000000000104957444766231120403456000000000000000000001076286823000011204034560000000000000000000010595633476624112040345600000000000000000000000000000000001120403456000000000000000000000000000000000011204034560000000000000000000000000000000000112040345600000000001016887194104842615900001120403456000000000010469385440000000000000011204034560000000000000000000000000000000000111817523210651484171086410929105499509600001120403456000000000000000000001057073302662511204034560000000000000000000010201645030000112040345600000000001082238435102848246900001120403456000000000000000000001030733164000011204034560000000000105000877400000000006626)
 (.leaf 11204034560000000000000000000010558874400000112040345610609980021006606116000000000066271120403456000000000000000000001043566926662811204034560000000000000000000000000000000000112040345600000000000000000000000000000000001120403456000000000000000000000000000000000011204034560000000000000000000000000000000000112040345600000000000000000000000000000000001120403456000000000000000000000000000000000011204034560000000000000000000000000000000000112040345600000000000000000000000000000000001120403456000000000000000000000000000000000011204034560000000000000000000000000000000000111935488010804872800000000000104495396200001120403456104329184800000000000000000000000011204034560000000000109113098910276143940000)))
 (.node 2 (.node 1 (.leaf 11204034560000000000000000000000000000000000112040345600000000001073582440106857447766291120403456000000000010905515461039492214000011204034560000000000000000000010433595290000112040345600000000001091428889000000000066301120403456000000000000000000000000000000663111193548800000000000000000000010621651806632110519910400000000000000000000104756861200001120403456000000000000000000000000000000000011204034560000000000000000000000000000000000112040345600000000000000000000000000000000001120403456000000000000000000000000000000000011204034560000000000000000000000000000000000112040345600000000000000000000000000000000001120403456000000000000000000000000000000000011204034560000000000000000000000000000000000)
 (.leaf 11204034560000000000000000000000000000000000112040345600000000000000000000105963112000001103626240104242507000000000001049753842000011204034561087322628105204888410288947620000112040345600000000000000000000000000000000001120403456000000000000000000000000000000663311204034561064736536000000000000000000000000112040345600000000000000000000000000000066341120403456000000000000000000001083196600000011204034560000000000000000000000000000006635112040345600000000000000000000000000000000001120403456000000000000000000000000000000000011204034560000000000000000000000000000000000112040345600000000000000000000105769121900001120403456097901793100000000000000000000663611204034560000000000000000000000000000000000))
 (.node 1 (.leaf 11204034560000000000103730171100000000000000112040345600000000000000000000000000000000001120403456000000000000000000000000000000000011204034560000000000000000000000000000000000112040345600000000000000000000000000000000001120403456000000000010373285540000000000663711204034560000000000000000000010449407196638112040345600000000000000000000103469079600001120403456107392614310411671810000000000663911091312640000000000000000000010571067340000112001024010544155110000000000105584386466401120403456000000000011053038041052023259000011204034560000000000107426946700000000000000112040345600000000000000000000102822064766411120403456000000000000000000001058420971664211204034560000000000000000000010333493430000)
 (.leaf 11204034560000000000000000000000000000000000112040345610961790701034684465105810058366431120403456000000000000000000000000000000000011204034560000000000000000000000000000000000112040345610816149861035516615102004080766441120403456000000000000000000000000000000000011204034561106565273000000000000000000006645112040345610907899441051555634000000000066461120403456000000000000000000000000000000000011204034560000000000000000000000000000000000112040345610617560630000000000000000000000001109131264000000000000000000001065645467000011175198720000000000000000000010465447230000112040345600000000000000000000103536630100001120403456000000000000000000000000000000000011204034560000000000000000000010517102716647))))
 (.node 4 (.node 2 (.node 1 (.leaf 11204034560000000000000000000010463895470000112040345600000000001083988928000000000066481120403456000000000000000000000000000000000011204034560000000000000000000000000000006649112040345600000000000000000000105118790066501119617024000000000010610095950000000000665111204034560000000000000000000000000000000000112040345600000000000000000000104929244500001116398945000000000010915229471049056899000011204034560000000000000000000000000000000000112040345600000000000000000000000000000000001120403456000000000000000000000000000000000011204034561066025404000000000000000000000000112040345600000000000000000000000000000000001120403456000000000000000000000000000000000011204034560000000000000000000000000000000000)
 (.leaf 11204034560000000000107705909910016528176652112040345610492532631070398964104569482666531120403456000000000000000000000000000000665411204034560000000000100016366610204774130000112040345600000000000000000000097244143666551120403456000000000000000000000000000000665611204034560000000000000000000000000000000000112040345600000000000000000000000000000000001120403456000000000010173166910000000000000011204034560000000000107197686100000000000000112040345600000000000000000000000000000000001120403456000000000000000000000000000000000011204034560000000000000000000000000000000000112040345600000000000000000000000000000066571120403456000000000000000000000000000000000011204034560000000000000000000010414645946658))
 (.node 1 (.leaf 11204034560000000000000000000000000000000000112040345600000000001062073270000000000066591120403456103329638511012257351051055563000011167334401062661043109150826710352241400000112040345610881189941072241941000000000066601120403456109680744610466969520000000000000011204034560000000000000000000000000000000000112040345600000000000000000000105382159966611120403456000000000000000000000000000000000011204034560000000000000000000000000000000000112040345600000000000000000000000000000000001120403456000000000000000000000000000000000011204034560000000000000000000000000000000000112040345600000000000000000000000000000000001120403456000000000000000000000000000000666211204034560000000000000000000010403451780000)
 (.leaf 11181752321047261404000000000010589539816663111935488010587216520000000000106563380166641120403456000000000000000000001044683278666511204034561083679472106799478900000000000000112040345600000000001059791569000000000066661120403456000000000000000000001036814896000011204034560000000000107455048610508472976667112040345610435559890000000000102532367100001120403456000000000000000000001049780600666811204034560000000000109723957300000000000000112040345600000000001108102663000000000000001116733440000000000011026825221087893041666911204034560000000000000000000010241571320000112040345600000000000000000000000000000066701120403456000000000000000000000000000000000011204034560000000000109710556510817362840000)))
 (.node 2 (.node 1 (.leaf 11204034560000000000000000000010545237330000112040345600000000000000000000000000000000001120403456109113147500000000000000000000000011204034561051544124000000000010206019046671110755840000000000000000000000000000000000001120403456000000000000000000000000000000000011204034560000000000110673013000000000000000112040345610589170901065932030000000000066721120403456000000000000000000001068936878000011204034560000000000000000000010426849900000112040345600000000000000000000000000000000001120403456111168135400000000000000000000000011204034560000000000000000000010295591080000112040345600000000000000000000101117580500001120403456000000000010970420221084148953000011204034560000000000000000000000000000000000)
 (.leaf 11204034560000000000000000000000000000000000112040345600000000000000000000105298915200001120403456000000000000000000001058245492667311160780800000000000000000000000000000006674112040345600000000000000000000101454147866751120403456000000000000000000000000000000667611204034561064259090106158337610456927556677112040345600000000000000000000102858221300001120403456000000000000000000000000000000000011204034561096584918000000000000000000000000112040345600000000000000000000000000000000001120403456108600057110615682760000000000000011204034561077804989000000000000000000000000112040345600000000000000000000000000000000001120403456101684317100000000001047944648000011204034560000000000000000000000000000000000))
 (.node 1 (.leaf 11204034561120403456000000000000000000000000112040345610726695330000000000000000000000001120403456000000000000000000000000000000000011204034560000000000000000000000000000000000112040345600000000000000000000000000000000001120403456000000000000000000001062732977000011204034560000000000000000000010766957200000112040345600000000000000000000000000000066781120403456000000000000000000000000000000000011204034560000000000110505497710358314330000112040345600000000000000000000105112095066791120403456000000000010920521630000000000000011204034560000000000110610056510566732010000112001024000000000000000000000000000000066801120403456105844731100000000000000000000000011204034560000000000000000000000000000000000)
 (.leaf 11204034560000000000000000000000000000000000112040345610840038601048723640102718007566811120403456000000000000000000001056909870000011204034560000000000000000000000000000000000112040345600000000000000000000000000000000001120403456000000000000000000001033173904000011204034560000000000110081002710509765896682112040345600000000001084938519103503630366831120403456000000000000000000001024359963668411204034561067832184109738385710272720866685112040345600000000000000000000000000000000001120403456000000000000000000000000000000000011141120001082617902106778423500000000000000112040345610672646270000000000000000000000001120403456108509819800000000000000000000000011204034560000000000000000000000000000000000)))))))
 (.node 32 (.node 16 (.node 8 (.node 4 (.node 2 (.node 1 (.leaf 11204034560000000000000000000000000000000000112040345610768039261019356801000000000066861120403456000000000010168335070000000000000011204034560000000000109515343110647289266687112040345600000000000000000000000000000000001120403456000000000000000000000000000000000011204034561038878903000000000010239700480000112040345600000000000000000000105194995566881120403456000000000000000000000000000000000011204034560000000000000000000000000000000000112040345600000000000000000000000000000000001120403456000000000000000000000000000000000011204034560000000000106075458100000000000000112040345600000000001062395393000000000000001120403456000000000010992495890000000000000011204034560000000000103967736510180466026689)
 (.leaf 11204034560000000000000000000010301422496690112040345600000000001090975905103395961400001119354880107987035211123919421042682160000011204034560000000000000000000000000000000000112040345600000000001008444899000000000000001120403456000000000000000000000000000000000011204034560000000000000000000000000000000000112040345600000000000000000000000000000066911120403456110575132100000000000000000000000011204034560000000000000000000000000000000000112040345600000000001096442341107537646900001120403456000000000000000000000000000000000011204034560000000000000000000000000000000000112040345600000000001100191000102708026466921120403456000000000010543607841059851144669311204034560000000000110808245210508687150000))
 (.node 1 (.leaf 11204034560000000000107844028300000000000000112040345600000000001088509130000000000000001120403456000000000011095233531024930958000011204034560000000000000000000000000000006694112040345600000000000000000000104766756000001120403456000000000000000000000000000000000011204034560000000000000000000010464692260000112040345600000000000000000000000000000000001120403456000000000000000000000000000000000011204034560000000000000000000000000000000000112040345600000000000000000000000000000000001120403456000000000000000000000000000000000011204034560000000000000000000010657641090000112040345600000000001076741590103639650800001120403456000000000010972689331063885270669511204034560000000000103867073200000000000000)
 (.leaf 11204034560000000000103336913100000000000000112040345610567103660000000000106451398900001120403456106428536300000000001037702133000011204034560000000000000000000010264165860000112040345600000000001075904407000000000000001120403456000000000011063412130000000000000011204034560000000000000000000010497056500000112040345600000000000000000000000000000000001120403456000000000000000000000000000000669611204034560000000000000000000000000000000000112040345600000000000000000000000000000000001120403456000000000000000000000000000000000011204034560000000000000000000000000000000000112040345600000000000000000000000000000000001120403456000000000000000000000000000000000011204034560000000000000000000000000000000000)))
 (.node 2 (.node 1 (.leaf 11204034560000000000000000000000000000000000112040345600000000000000000000000000000000001120403456000000000000000000000000000000669711204034560000000000109612409810769934606698112040345600000000001094486747108217157466991120403456000000000010952987641044194303670011204034560000000000000000000000000000000000112040345600000000000000000000000000000000001120403456000000000000000000000000000000000011204034560000000000107174617410486311436701112040345600000000000000000000000000000067021120403456000000000010994918621041108395670311204034560000000000110948327110327558750000112040345600000000000000000000000000000000001120403456000000000000000000000000000000000011120148480000000000000000000000000000000000)
 (.leaf 11104419840000000000000000000000000000000000112040345600000000000000000000000000000000001120403456000000000000000000000000000000000011204034561077461308103284568210470580540000112040345600000000000000000000000000000067041120403456000000000000000000000000000000000011204034560000000000000000000000000000000000112040345610687958840000000000000000000000001120403456000000000000000000000000000000000011204034560000000000000000000000000000000000112040345600000000000000000000101712705200001120403456000000000010948423190000000000670511204034560000000000000000000000000000000000112040345610398310440000000000102748434567061120403456107498520900000000000000000000000011200102401077289970103225512410632312940000))
 (.node 1 (.leaf 11204034560000000000000000000000000000006707112040345600000000000000000000000000000067081120403456000000000000000000000000000000000011204034560000000000110919614500000000000000108632473600000000001076843512107716625900001120403456000000000000000000001043870111000011204034560000000000000000000000000000000000111122841600000000001062749392000000000000001120403456000000000000000000000000000000000011204034560000000000000000000000000000000000112040345600000000000000000000000000000000001120403456000000000000000000000000000000000011204034560000000000000000000000000000000000112040345600000000000000000000000000000000001120403456000000000000000000000000000000000011204034560000000000000000000000000000006709)
 (.leaf 11204034561045406046000000000010380016036710112040345611140165031053974908107815565900001120403456000000000000000000001026517051000011160780800000000000110207723110576070530000112040345600000000001108178135103347706700001120403456107122155911092101961048669235671111204034561068797402103343624000000000000000112040345600000000000000000000000000000000001120403456000000000000000000000000000000000011204034560000000000000000000000000000000000112040345600000000000000000000000000000000001120403456000000000000000000000000000000000011204034560000000000000000000000000000000000112040345600000000000000000000000000000000001120403456110390084400000000000000000000000011204034560000000000000000000000000000000000))))
 (.node 4 (.node 2 (.node 1 (.leaf 11185684480000000000000000000000000000000000112040345600000000000000000000000000000000001120403456000000000000000000000000000000000011204034560000000000000000000010441348186712112040345600000000001033637567000000000067131120403456000000000010251147410000000000000011204034560000000000000000000000000000006714112040345600000000000000000000000000000000001112014848000000000011037017371083517804671511204034560000000000000000000000000000000000112040345600000000000000000000000000000000001120403456000000000000000000000000000000000011204034560000000000000000000000000000000000112040345600000000000000000000000000000000001120403456000000000000000000000000000000000011204034561038638654000000000000000000000000)
 (.leaf 11204034561073993029108893590010570750290000112040345600000000000000000000000000000000001120403456000000000000000000000000000000000011204034560000000000000000000000000000000000112040345600000000000000000000103257223900001120403456000000000000000000000000000000000011204034561097036909103323491410614393110000112040345600000000000000000000000000000000001120403456000000000010267521971030373349000011204034560000000000000000000010411454866716112040345600000000000000000000000000000067171120403456000000000000000000000000000000671811204034560000000000000000000000000000000000112040345600000000000000000000000000000000001120403456000000000000000000000000000000000011204034560000000000000000000000000000000000))
 (.node 1 (.leaf 11204034560000000000000000000000000000000000112040345600000000000000000000000000000000001114898432000000000000000000000000000000000011204034560000000000000000000000000000000000111411200000000000000000000000000000000000001120403456000000000000000000000000000000000011204034560000000000000000000000000000000000112040345600000000000000000000105009939000001120403456000000000000000000000000000000000011204034560000000000000000000000000000000000112040345610991446061063292974107257654867191120403456110561765310669629901072152639672011204034561053862937000000000010158093706721112040345600000000000000000000102777258700001120403456000000000000000000000000000000000011204034560000000000000000000000000000000000)
 (.leaf 11204034560000000000000000000000000000000000112040345600000000000000000000000000000000001120403456000000000000000000000000000000000011204034560000000000000000000000000000000000112040345600000000000000000000000000000000001120403456000000000000000000000000000000000011204034560000000000000000000000000000000000112040345600000000000000000000000000000000001120403456000000000000000000000000000000672210936647680000000000000000000000000000000000112040345600000000000000000000103596864000001119354880000000000010215579710000000000000011204034560000000000000000000000000000000000112040345600000000000000000000000000000000001120403456000000000000000000000000000000000011204034560000000000000000000000000000000000)))
 (.node 2 (.node 1 (.leaf 11204034560000000000000000000000000000000000112040345600000000000000000000000000000000001120403456000000000000000000000000000000000011204034560000000000000000000000000000000000112040345600000000000000000000000000000000001120403456000000000000000000000000000000000011204034560000000000000000000000000000000000112040345600000000000000000000000000000000001120403456000000000000000000000000000000000011204034561059453944000000000010538553840000112040345600000000001030027110103983616200001120403456000000000000000000000000000000000011204034560000000000110472132000000000000000112040345600000000000000000000000000000000001120403456109722059910567733481066757528672311204034561061204311098768141710610836016724)
 (.leaf 11204034561054387930000000000000000000006725111856844800000000000000000000107719158800001120403456000000000000000000000000000000672611204034560000000000000000000000000000006727112040345600000000000000000000000000000000001120403456000000000000000000000000000000000011204034560000000000000000000000000000000000112040345600000000000000000000000000000000001120403456000000000000000000000000000000000011204034560000000000000000000000000000000000112040345600000000000000000000000000000000001120403456000000000000000000000000000000000011204034560000000000000000000000000000000000112040345600000000000000000000000000000000001120403456000000000000000000000000000000000011204034560000000000000000000000000000000000))
 (.node 1 (.leaf 11204034560000000000102511474100000000000000112040345600000000000000000000000000000000001120403456000000000000000000000000000000000011204034561063203384000000000010446246980000112040345611086541601033731519103770680200001120403456109103184411001145590000000000000011204034561038630466101908836510584183326728112040345600000000000000000000102878631867291120403456000000000000000000000000000000673011204034560000000000000000000000000000006731112040345600000000001105194648101858088867321120403456000000000000000000000000000000000011204034560000000000000000000000000000000000112040345600000000000000000000000000000000001120403456000000000000000000000000000000000011204034560000000000000000000000000000000000)
 (.leaf 11204034560000000000000000000000000000000000112040345600000000000000000000000000000000001117519872000000000010368319490000000000000011204034560000000000000000000000000000000000112040345600000000000000000000000000000000001120403456000000000000000000000000000000000011204034560000000000000000000000000000000000112040345600000000000000000000000000000000001120403456000000000000000000000000000000000011204034560000000000000000000000000000000000112040345600000000000000000000000000000000001120403456000000000000000000000000000000000011204034560000000000000000000000000000000000112040345600000000000000000000000000000000001120403456000000000000000000000000000000000011204034560000000000000000000000000000000000)))))
 (.node 8 (.node 4 (.node 2 (.node 1 (.leaf 11204034560000000000000000000000000000000000112040345600000000000000000000000000000000001120403456000000000000000000000000000000000011204034560000000000000000000000000000000000112040345600000000000000000000000000000000001120403456000000000000000000000000000000000011204034560000000000000000000000000000000000112040345600000000001094000732104263702400001120403456107114726900000000001037361452673311204034560000000000000000000010778425950000112040345600000000000000000000000000000000001120403456000000000000000000001031749944000011204034560000000000000000000010507427756734112040345600000000000000000000000000000067351120403456000000000000000000001031919673000011163402240000000000107688755210559194680000)
 (.leaf 11204034560000000000000000000000000000000000112040345600000000000000000000000000000000001120403456000000000000000000000000000000000011204034560000000000000000000000000000000000112040345600000000000000000000000000000000001120403456000000000000000000000000000000000011204034560000000000000000000000000000000000112040345600000000000000000000000000000067361120403456000000000010387512621044119251000011204034560000000000103813386110508480770000112040345600000000000000000000102935422967371120403456106595401610193031141033307188673811204034560000000000000000000000000000006739112040345600000000000000000000000000000067401120403456000000000000000000000000000000674111204034560000000000000000000000000000000000))
 (.node 1 (.leaf 11204034561089084150000000000000000000000000112040345600000000000000000000000000000000001120403456000000000000000000000000000000000011204034560000000000000000000000000000000000112040345600000000000000000000000000000000001120403456000000000000000000000000000000000011204034560000000000000000000000000000000000112040345610780459010000000000000000000000001120403456000000000000000000000000000000000011185684480000000000000000000000000000000000112040345600000000000000000000000000000000001120403456000000000000000000000000000000000011204034560000000000000000000010623973260000112040345610466409160000000000106038561400001120403456106484555410968690071065375433000011204034560000000000105536406210658747170000)
 (.leaf 11204034560000000000105534728410623196930000112040345600000000000000000000000000000067421120403456105190557300000000000000000000000011204034560000000000000000000010291325770000112040345600000000000000000000000000000067431120403456000000000000000000000000000000000011204034560000000000000000000000000000000000112040345600000000000000000000102845369900001120403456000000000010496631640000000000000011204034560000000000000000000000000000000000112040345600000000000000000000000000000000001120403456000000000000000000000000000000000011204034560000000000000000000000000000000000112040345600000000000000000000000000000000001120403456000000000000000000000000000000000011204034560000000000109780391710425618296744)))
 (.node 2 (.node 1 (.leaf 11204034561057389239103225512410401698106745112040345600000000000000000000102764866500001120403456000000000000000000000000000000000011204034560000000000000000000000000000000000112040345600000000000000000000000000000000001120403456000000000000000000000000000000000011204034560000000000106584898300000000000000112040345600000000000000000000000000000000001120403456000000000000000000000000000000000011204034560000000000000000000000000000000000111896166410903773560000000000000000000000001120403456098037514100000000001065430798000011204034561067290422000000000010372817066746112040345600000000000000000000103423004467471120403456000000000000000000000000000000674811167334400000000000000000000010746414286749)
 (.leaf 11204034560000000000000000000000000000006750112040345600000000000000000000000000000000001120403456000000000010680996460000000000000011204034560000000000000000000000000000000000112040345600000000000000000000000000000000001120403456000000000000000000000000000000000011204034560000000000000000000000000000000000112040345600000000000000000000000000000000001120403456000000000000000000000000000000000011204034560000000000000000000000000000000000112040345600000000000000000000000000000000001120403456000000000000000000000000000000000011204034560000000000000000000000000000000000112040345600000000000000000000000000000000001120403456000000000000000000001050405780675111204034560000000000000000000010369237656752))
 (.node 1 (.leaf 11204034561069407883000000000010382840520000112040345610733865250000000000000000000067531120403456104346404900000000001030985452675411204034560000000000103026870210376576760000112040345600000000000000000000000000000000001120403456000000000000000000001013128458000011204034560000000000000000000010206066556755112040345600000000000000000000103496556400001120403456000000000000000000001023014974675611204034560000000000000000000000000000000000111896166410673646280000000000104917793967571120403456105886125500000000000000000000000011204034560000000000000000000000000000000000112040345600000000000000000000000000000000001120403456000000000000000000000000000000000011204034560000000000000000000000000000000000)
 (.leaf 11204034560000000000000000000000000000000000112040345600000000000000000000000000000067581120403456000000000010466835301056700724000011204034560000000000000000000000000000000000112040345610603973770000000000000000000000001120403456000000000010646015971038283113000011204034560000000000000000000000000000000000112040345600000000000000000000000000000000001120403456000000000000000000000000000000000011204034560000000000000000000000000000000000112040345600000000000000000000000000000000001120403456000000000000000000000000000000000010936647680000000000000000000000000000000000112040345600000000000000000000000000000000001120403456000000000000000000000000000000000011204034560000000000000000000000000000000000))))
 (.node 4 (.node 2 (.node 1 (.leaf 11204034561117048709000000000000000000000000112040345600000000000000000000103971515400001120403456000000000000000000000000000000675911204034561072009149000000000000000000006760112040345600000000000000000000000000000067611120403456106536207400000000001047064442000011204034560000000000000000000000000000000000112040345600000000001016887194000000000067621115684864000000000000000000000000000000000011204034561091602020104258988900000000000000112040345600000000000000000000000000000000001120403456000000000000000000000000000000000011204034560000000000000000000000000000000000112040345600000000000000000000000000000000001120403456000000000000000000000000000000000011204034560000000000000000000000000000006763)
 (.leaf 11204034561074306457000000000000000000000000112040345600000000000000000000000000000000001120403456000000000000000000001066001263000011036262400000000000000000000010759832446764112040345600000000000000000000000000000000001120403456000000000000000000000000000000000011204034560000000000000000000000000000000000112040345600000000000000000000000000000000001120403456000000000000000000000000000000000011204034561076035236000000000000000000000000112040345600000000000000000000000000000000001120403456000000000000000000000000000000000011204034560000000000000000000000000000000000112040345600000000000000000000000000000000001120403456000000000000000000000000000000000011204034560000000000000000000010481461930000))
 (.node 1 (.leaf 11204034560000000000000000000010222088220000112040345610846894271028335967107734813000001120403456000000000000000000000000000000000011204034560000000000000000000000000000006765112040345600000000000000000000103137756500001120403456000000000000000000000000000000000011204034560000000000000000000000000000000000112040345600000000000000000000000000000000001119617024000000000010744225600000000000000011204034560000000000000000000000000000000000112040345600000000000000000000000000000000001120403456104210751100000000000000000000000011204034560000000000000000000000000000000000112040345600000000000000000000000000000000001120403456000000000000000000000000000000000011204034560000000000000000000000000000000000)
 (.leaf 11204034560000000000000000000000000000000000112040345600000000000000000000000000000000001120403456000000000000000000000000000000000011204034560000000000000000000000000000000000109051904000000000000000000000000000000000001120403456000000000000000000001012313745000011204034560000000000000000000010263265730000111122841610764215650000000000107029168200001100480512108229645300000000001055900955000011204034560000000000000000000000000000000000112040345600000000000000000000000000000000001116078080000000000000000000001051804222000011204034560000000000000000000000000000000000112040345600000000000000000000000000000000001120403456000000000000000000000000000000000011204034560000000000000000000000000000000000)))
 (.node 2 (.node 1 (.leaf 11204034560000000000000000000000000000000000112040345600000000000000000000000000000000001120403456000000000000000000000000000000000011204034560000000000000000000000000000000000112040345600000000000000000000104958721467661120403456000000000000000000000000000000000011204034560000000000000000000000000000000000112040345600000000000000000000104440322267671120403456000000000000000000001034270470676811204034560000000000000000000000000000000000112040345600000000000000000000000000000000001120403456000000000000000000000000000000000011204034560000000000000000000000000000000000112040345600000000000000000000000000000000001120403456000000000000000000000000000000000011204034560000000000000000000000000000000000)
 (.leaf 11204034560000000000000000000000000000000000112040345600000000000000000000000000000000001120403456000000000000000000000000000000000011204034560000000000000000000000000000000000112040345600000000000000000000000000000000001120403456000000000000000000000000000000000011204034560000000000000000000000000000000000112040345611094192400000000000000000000000001120403456000000000000000000001037437191000011204034560000000000000000000000000000000000112040345610409914230000000000105359827300001120403456000000000000000000000000000000000011120148481111659168106500425010528577300000112040345600000000000000000000105939230067691120403456000000000010618736210000000000000011204034560000000000000000000000000000000000))
 (.node 1 (.leaf 11204034560000000000000000000000000000000000112040345600000000000000000000000000000000001120403456000000000000000000000000000000000011204034560000000000000000000000000000000000112040345600000000000000000000000000000000001120403456000000000000000000000000000000000011179130881050172822000000000010499873350000112040345600000000000000000000000000000000001120403456000000000000000000000000000000000011204034560000000000000000000000000000000000112040345600000000000000000000000000000000001120403456000000000000000000000000000000000011204034560000000000000000000000000000000000112040345600000000000000000000000000000000001120403456000000000000000000000000000000000011204034560000000000000000000000000000000000)
 (.leaf 11204034560000000000000000000010259897096770112040345600000000000000000000104992085967711120403456000000000000000000000000000000000011204034560000000000000000000010179272036772112040345600000000000000000000000000000000001116340224000000000000000000000000000000000011181752320000000000110877252010519830940000111201484800000000000000000000104200182100001120403456000000000000000000000000000000000011204034560000000000000000000000000000000000112040345600000000000000000000000000000000001120403456000000000000000000000000000000000011204034560000000000000000000000000000000000112040345600000000000000000000000000000000001120403456000000000000000000000000000000000011204034560000000000000000000000000000000000))))))
 (.node 16 (.node 8 (.node 4 (.node 2 (.node 1 (.leaf 11204034560000000000000000000000000000000000112040345600000000000000000000000000000000001120403456000000000000000000000000000000000011204034560000000000000000000000000000000000112040345611098425251044113261105262299700001120403456000000000000000000001035906044000011204034560000000000000000000000000000006773112040345600000000000000000000000000000000001120403456000000000000000000000000000000000011204034560000000000000000000000000000000000112040345610504592090000000000000000000000001120403456109514460700000000000000000000000011204034560000000000000000000010572432040000112040345600000000000000000000000000000000001120403456000000000000000000000000000000000011204034560000000000000000000000000000000000)
 (.leaf 11204034561076421930000000000000000000000000112040345610688857430000000000103856097300001120403456000000000000000000000000000000000011204034560000000000000000000010682698486774112040345600000000000000000000105733851500001120403456000000000000000000001040811561000011204034560000000000000000000000000000000000112040345610517741740000000000000000000000001120403456000000000000000000000000000000000011204034560000000000000000000000000000000000112040345600000000000000000000000000000000001120403456000000000000000000000000000000000011204034560000000000000000000000000000000000112040345600000000001094802263104661030767751120403456000000000000000000001053339800677610994319360000000000000000000010254548500000))
 (.node 1 (.leaf 11204034561066895747000000000000000000006777112040345610700912440000000000106522720267781120403456107039821700000000001056015350677911135877120000000000000000000010687279390000112040345600000000000000000000000000000000001120403456000000000000000000000000000000000011204034560000000000000000000000000000000000112040345600000000000000000000000000000000001120403456000000000000000000000000000000000011204034560000000000000000000000000000000000112040345600000000000000000000000000000000001120403456000000000000000000000000000000000011204034560000000000109329021710288280196780112040345600000000000000000000103533553267811120403456000000000000000000001015950088000011204034560000000000000000000000000000000000)
 (.leaf 11204034560000000000000000000000000000006782112040345610723603380000000000104142682700001120403456000000000000000000000000000000000011204034560000000000000000000000000000000000112040345600000000000000000000000000000000001120403456000000000000000000000000000000000011204034560000000000000000000000000000000000112040345600000000000000000000000000000000001120403456000000000000000000000000000000000011204034560000000000000000000000000000000000112040345600000000000000000000000000000000001120403456000000000000000000000000000000000011204034560000000000000000000000000000000000112040345600000000000000000000000000000000001111228416000000000010168871941057494229678311204034561030555659000000000010681148296784)))
 (.node 2 (.node 1 (.leaf 11204034560000000000000000000000000000000000112040345610736256250000000000000000000000001120403456000000000000000000000000000000000011204034560000000000000000000000000000000000111961702400000000000000000000105866964900001116733440106107519400000000001065893172678511204034560000000000000000000000000000006786112040345610755196970000000000105696104600001120403456107086078200000000001055429907000011204034561099357470000000000000000000000000112040345600000000000000000000000000000000001120403456109067536710372077580000000000000011204034560000000000000000000000000000000000112040345610923147860000000000000000000000001120403456110380310400000000000000000000000011204034560000000000000000000000000000000000)
 (.leaf 11204034560000000000000000000000000000000000112040345600000000000000000000103903832800001120403456000000000000000000000000000000000011204034560000000000000000000000000000000000110048051211004805120000000000000000000000001120403456000000000000000000000000000000000011204034560000000000000000000010692825170000111634022410765586851035100540104796894467871116078080109180730210788072851074430118000011189616641102525642104309991710725434760000112040345600000000000000000000000000000000001120403456000000000000000000000000000000000011204034560000000000000000000000000000000000112040345600000000000000000000000000000000001120403456000000000010644204030000000000000011204034560000000000000000000000000000000000))
 (.node 1 (.leaf 11204034560000000000000000000000000000000000112040345600000000000000000000105238512200001120403456000000000000000000000000000000000011204034561095701758105892418710502972510000112040345600000000000000000000000000000000001120403456108453961300000000000000000000000011204034560000000000000000000000000000000000112040345600000000000000000000000000000000001120403456103616502100000000001039984740678811204034560000000000000000000000000000000000112040345610640687360000000000000000000000001120403456107910645600000000000000000000000011204034561055295275000000000010338179520000112040345610764754201041234290000000000000001120403456000000000000000000000000000000000011204034560000000000000000000000000000000000)
 (.leaf 11204034560000000000000000000000000000000000112040345600000000000000000000000000000000001120403456000000000000000000000000000000000011204034560000000000000000000000000000000000112040345610388872251097911396000000000000001120403456000000000010850389721040822676000011204034560000000000000000000010506678326789112040345600000000000000000000000000000000001120403456000000000000000000000000000000000011204034560000000000000000000000000000000000112040345600000000000000000000000000000000001120403456000000000010751305580000000000000011204034560000000000000000000000000000000000112040345600000000000000000000000000000000001120403456000000000010977091261033729001000011204034560000000000000000000000000000006790))))
 (.node 4 (.node 2 (.node 1 (.leaf 11204034560000000000000000000010286438306791112040345600000000000000000000000000000000001120403456104921829900000000000000000000000011204034561078617514110242352300000000000000112040345600000000000000000000000000000000001120403456000000000000000000000000000000000011204034560000000000000000000000000000000000112040345600000000001038402296106685749600001120403456000000000010405229361056244926000011004805120000000000000000000000000000000000112040345611071208611006606116103463255200001120403456106926198900000000000000000000679211204034561067921145000000000010413939100000112040345600000000000000000000104984256200001120403456000000000000000000001042050418000011204034561083191079103755672510398368660000)
 (.leaf 11204034560000000000000000000010326146286793112040345600000000000000000000102579868167941120403456000000000000000000000000000000000011204034561057834607000000000010414489110000112040345600000000000000000000000000000000001120403456000000000000000000001046079280000011204034560000000000000000000000000000000000112040345610895322610000000000000000000000001120403456000000000000000000000000000000000011204034560000000000000000000000000000000000112040345611029751901016887194102945123200001120403456000000000000000000000000000000000011204034561064854245000000000000000000000000112040345610852368761094160325105928924400001120403456000000000010663791430000000000000011204034560000000000000000000000000000000000))
 (.node 1 (.leaf 11204034561004310456106969432100000000000000112040345600000000001091824622000000000000001120403456000000000000000000000000000000000011204034560000000000000000000000000000000000112040345610682389471099800406000000000000001120403456000000000000000000000000000000679511204034560000000000000000000010423289400000110362624000000000001064294574106105824900001120403456108945392410710146880000000000000011204034561077014497108114267300000000000000112040345610955599751077828334000000000000001120403456109140565410402209461056201991000011204034561095983619099930467210260348500000112040345611076060641063229220103100519700001120403456000000000000000000000000000000000011204034561074068078106840666900000000000000)
 (.leaf 11204034560000000000000000000000000000006796112040345600000000000000000000103685741067971120403456000000000000000000001064290697000011204034561053163663000000000010598865270000112040345600000000001076908104000000000000001120403456000000000000000000000000000000000011204034560000000000000000000000000000000000112040345610779484341057991374104434326567981120403456110167006410853569001060868130000011204034561108193279107573244100000000000000112040345611203839570000000000000000000000001120403456000000000000000000000000000000000011204034561082962011105999289500000000006799112040345600000000000000000000000000000000001120403456108452910010737971890000000000000011204034560000000000000000000000000000000000)))
 (.node 2 (.node 1 (.leaf 11204034560000000000000000000000000000000000112040345610572450061068709498000000000068001120403456111153068910504852470988985626000011204034560000000000000000000000000000000000112040345600000000000000000000000000000000001120403456000000000000000000000000000000000011156848640000000000000000000010716613150000112040345610713597450000000000000000000068011120403456000000000000000000000000000000000011083448320000000000000000000010746387770000112040345610597652290000000000000000000000001120403456109060005610168871940000000000000011204034560000000000000000000000000000000000112040345611032501321068728792103395464268021120403456108276467410791252131018487686680311204034561084527754103465762200000000000000)
 (.leaf 11204034561067173317111431010200000000000000112040345600000000000000000000000000000000001120403456000000000000000000000000000000000011204034560000000000000000000000000000000000110048051200000000000000000000107328914000001120403456000000000000000000001053831661000011204034561081274677000000000000000000000000112040345610761050670000000000103207098600001120403456000000000000000000000000000000000011204034561112750272107682254000000000000000112040345610980943841043650209105902164000001120403456000000000000000000001030766769000011204034560000000000103331544410475342200000112040345600000000000000000000000000000000001120403456000000000010940687841013263938000011204034560000000000000000000000000000000000))
 (.node 1 (.leaf 11204034561076983274103593269010726058190000112040345611154433341022470652102684441400001120403456109192811611076931680000000000000011204034561025398477000000000010731116886804112040345611130378031051018763106957657300001120403456109544833210403484531052125606000011204034560000000000108815261400000000000000112040345610778742331109212476000000000000001120403456000000000010662365360000000000000011204034560000000000000000000000000000000000112040345600000000000000000000000000000000001120403456000000000000000000000000000000000011204034560000000000000000000010585849010000112040345611161188761029463396104641503700001120403456000000000000000000000000000000000011204034560000000000000000000000000000000000)
 (.leaf 11204034561087179101106548072310227280450000112040345600000000000000000000101973030168051120403456000000000000000000000000000000000011204034560000000000000000000000000000000000112040345600000000000000000000104031276100001120403456111112686811012880200000000000000011020533761098132038000000000000000000000000111961702400000000000000000000105708037100001120403456000000000010459520430000000000000011204034560000000000000000000000000000000000112040345600000000000000000000000000000000001120403456000000000000000000000000000000000011204034560000000000000000000000000000000000112040345610906964271025248959000000000000001120403456000000000000000000000000000000000011204034560000000000000000000000000000000000)))))
 (.node 8 (.node 4 (.node 2 (.node 1 (.leaf 11204034561119648594106908614700000000000000112040345610941691011035865581000000000000001113587712109136955210512536441038178165000011204034561069668777106966160510575288150000112040345600000000000000000000000000000000001120403456000000000000000000000000000000680611204034561005695583000000000000000000000000112040345610779625100000000000000000000000001120403456109333665600000000000000000000000011204034560000000000106615181100000000000000112040345610922383971004243884103401790268071120403456000000000010498410020000000000000011204034560000000000000000000000000000000000112040345600000000000000000000000000000000001120403456000000000000000000000000000000000011204034560000000000000000000000000000000000)
 (.leaf 11204034561085149242104020752510406002830000112040345611195829251086457695104500208200001120403456110492793100000000000000000000000011204034560000000000000000000010470831470000112040345610652258770000000000000000000068081120403456107061329300000000001015444293000011204034560000000000000000000000000000000000112040345600000000000000000000000000000000001120403456107130475700000000001017597270000011204034561091887194000000000000000000000000112040345611128151221053038739106185928500001120403456000000000000000000001030433187000011204034561095136028109572532500000000000000112040345600000000000000000000104246344700001112801280000000000010820213801049829147680911204034560000000000000000000000000000000000))
 (.node 1 (.leaf 11204034560000000000000000000000000000006810112040345600000000000000000000000000000000001120403456000000000010322551240000000000000011204034560000000000000000000000000000000000112040345600000000001063485912000000000000001120403456000000000000000000000000000000000011204034560000000000000000000000000000000000112040345600000000000000000000000000000000001120403456108440310510787712140000000000000011204034561076370621000000000000000000000000112040345600000000000000000000000000000000001120403456110365231210297586751037803078000011204034561035999128000000000000000000000000112040345600000000000000000000000000000000001120403456000000000000000000000000000000000011204034560000000000107307660700000000000000)
 (.leaf 11204034560000000000110152122400000000000000112040345610793524561098989489000000000000001117519872111359002510936547021050886929000011204034560000000000000000000000000000006811112040345600000000000000000000000000000000001120403456000000000000000000000000000000000011204034560000000000000000000000000000000000112040345600000000000000000000000000000000001120403456000000000010994241240000000000000011204034560000000000107076051300000000000000112040345610923081121055706317000000000000001120403456000000000000000000000000000000000011200102401063061482000000000010318568390000112040345610996610681087860480000000000000001120403456000000000000000000001038164698000011204034561065082868000000000000000000000000)))
 (.node 2 (.node 1 (.leaf 11204034561067761988000000000000000000000000112040345610575634880000000000000000000000001120403456111058228810859847880000000000000011204034561096265643105778501400000000006812112040345610863799441076430373000000000000001086324736000000000000000000000000000000000011204034560000000000000000000000000000000000112040345600000000000000000000000000000068131120403456000000000000000000000000000000000011204034560000000000000000000000000000000000112040345610815697790000000000000000000000001120403456000000000000000000000000000000000011204034560000000000108688656300000000000000112040345600000000000000000000000000000000001120403456000000000000000000000000000000000010968104961095226689104896523110521696910000)
 (.leaf 11204034561100055760000000000000000000000000112040345610675821870000000000000000000000001120403456108334042200000000000000000000000011051991041075128843104514673710370165410000112040345600000000000000000000000000000000001120403456000000000010462674550000000000000011204034560000000000110363651610732430840000112040345600000000000000000000000000000068141120403456000000000000000000000000000000000011204034561082188292110039012510323847580000112040345610724063240000000000105493704000001120403456107883274010304297630000000000000011204034560000000000000000000000000000000000112040345610849826551048609554000000000000001120403456000000000000000000001062554893000011204034561115373532000000000000000000000000))
 (.node 1 (.leaf 11204034560000000000000000000010415049110000112040345610693074380000000000000000000000001120403456111677117200000000000000000000000011204034561067095136000000000000000000000000112040345610759862511071708425000000000000001120403456000000000000000000000000000000000011204034560000000000101677982000000000000000112040345600000000000000000000000000000000001119617024108517075100000000001048668492000011204034561066072262000000000000000000000000112040345600000000000000000000000000000000001120403456105030160400000000001066928227000011204034561076383812106439859200000000000000112040345610704744020000000000000000000000001120403456000000000009926340510000000000000011204034560000000000000000000000000000000000)
 (.leaf 11204034560000000000000000000000000000000000112040345600000000000000000000103573337800001120403456000000000000000000000000000000000011204034560000000000000000000000000000000000112040345610088690270000000000000000000000001106771968000000000000000000001040131805000011204034561078067829000000000000000000000000112040345600000000000000000000000000000000001120403456106619071800000000001018553465000011204034560000000000000000000010454061980000112040345610720792520000000000000000000000001120403456092755241200000000000000000000000011204034561025262112106639172600000000000000112040345600000000000000000000000000000000001100480512000000000000000000001065442886000011204034560000000000000000000000000000006815))))
 (.node 4 (.node 2 (.node 1 (.leaf 11204034561076902870108090401810222365730000112040345610941645601033382553104519993900001120403456000000000000000000000000000000000011204034561065540928000000000010530397520000112040345610374778050000000000106544027600001120403456000000000000000000000000000000000011204034561030399430000000000000000000000000112040345610978475860000000000000000000000001120403456000000000010377983160000000000000011204034560000000000000000000000000000000000110677196810722705381105273500105846694200001107558400000000000000000000000000000000000011204034560000000000000000000000000000000000112040345610680268500000000000000000000000001112014848101347215900000000001058882910000011204034561100474783104654260110671997280000)
 (.leaf 11204034561070045023000000000000000000000000112040345610798589901021665346000000000000001120403456000000000000000000000000000000000011204034560000000000107082678300000000000000112040345600000000001067431074000000000000001093664768107835460200000000000000000000000011204034561071670366000000000010699215850000112040345600000000000000000000000000000000001120403456000000000000000000001051885377000011204034560000000000000000000010334699750000112040345600000000000000000000105381649900001120403456106798770900000000000000000000000011204034561104160511000000000000000000000000112040345611091044751058680917106564895500001120403456000000000000000000000000000000000011204034560000000000000000000000000000000000))
 (.node 1 (.leaf 11185684481065088153000000000010364602160000112040345610808807560000000000000000000000001120403456000000000000000000000000000000000011204034561059592826000000000000000000000000112040345610745032660000000000000000000000001120403456000000000000000000000000000000000011204034561120302673102632270110319365190000112040345610690120920000000000000000000000001120403456106357587100000000000000000000000011204034561074098369000000000000000000000000111961702410951428101041234290106348706000001120403456110746466110716983591090550353000011204034561054789643000000000000000000000000112040345610902541990000000000000000000000001120403456107477457500000000001055478151000011204034560000000000000000000000000000000000)
 (.leaf 11204034561082968966000000000000000000000000110048051200000000000000000000106340355800001120403456111219823100000000000000000000000011204034561092856878104987791210401742730000112040345610881610901042938855103739006400001120403456108611166510578068240000000000000011204034561089562447107584442910507295926816112040345610775409360000000000000000000000001120403456110972696110668354831048835049000011204034561085576621109417112510313255780000112040345611021249271061828323107450272500001120403456107124296700000000000000000000000011204034560000000000000000000010206372190000112040345610555749851078597570106564048268171120403456108027243110340133770000000000681811204034561056966974000000000010347521370000)))
 (.node 2 (.node 1 (.leaf 11204034560000000000110168107900000000000000112040345610442420420000000000000000000000001120403456108073275600000000000000000000000011204034561074364250000000000000000000000000112040345610573443100000000000000000000000001120403456106939926000000000000000000000000011204034560000000000000000000010583215330000112040345610559840470000000000000000000000001120403456111502886100000000000000000000000011204034561120403456000000000000000000000000112040345610516452910000000000000000000000001120403456110448332610372077580000000000681911204034560000000000108524973610296569870000112040345600000000000000000000000000000000001120403456000000000000000000000000000000000011204034561111342522103005395410361680170000)
 (.leaf 11204034560000000000000000000000000000000000112040345611031381520000000000000000000000001120403456105611507700000000000000000000000011204034561091316051000000000000000000000000112040345600000000000000000000000000000000001105199104000000000010834101140000000000000011204034561047618021000000000010607153480000112040345610742963741075140624000000000000001120403456000000000000000000000000000000000011204034561073198846000000000010226289690000112040345610680947640000000000000000000068201120403456106840737410654312301064774421682111200102401114863588107470651410703993190000111044198400000000000000000000102504099368221120403456107893903600000000000000000000000011204034561081542927000000000000000000000000))
 (.node 1 (.leaf 11204034561116993309105995095210357583780000112040345600000000000000000000104156846600001120403456107084282200000000000000000000000011204034561099838660109183133300000000000000112040345600000000001101475348000000000000001086324736000000000000000000001010743487000011204034561041759887000000000000000000000000112040345611067718751059687550107830159300001120403456108243127700000000000000000000000011204034561090792091105870943810505425630000112040345610436394050000000000000000000068231120403456108290752110412745561050945862682411204034560000000000106622311500000000000000112040345600000000001097326815000000000000001120403456105284201000000000001052098339000011204034560000000000000000000010405700540000)
 (.leaf 11204034561053304021000000000000000000000000111411200000000000000000000000000000000000001120403456108850090000000000000000000000000011204034560000000000000000000000000000000000112040345610603142800000000000000000000000001120403456108008995810550218060000000000000011204034560000000000106703513210181340840000112040345610391606261074570199000000000000001120403456000000000000000000000000000000682511128012801095266394101688719400000000000000112040345610657343610000000000000000000000001120403456000000000000000000001077133464000011204034561066662644000000000000000000000000112040345610683406681073053958000000000000001120403456108768124310479116221025821281682611204034560000000000000000000000000000006827))))))))
 (.node 64 (.node 32 (.node 16 (.node 8 (.node 4 (.node 2 (.node 1 (.leaf 11204034560000000000000000000000000000000000112040345610866617270000000000104392678200001120403456110408133410182293721057652043682811204034560000000000000000000000000000000000112040345610520347910000000000000000000000001120403456110192907000000000001042647291000011204034561115770637102145059710330518880000112040345611202309891027879626103718181800001120403456000000000000000000000000000000000011204034561058160220000000000010596639570000112040345611131352461031503505104904855800001120403456104327285600000000000000000000000011204034561087260666104477763810675285366829107793612800000000000000000000000000000000001077936128000000000000000000000000000000000011204034561102516532102438996510500355540000)
 (.leaf 11204034561105244297102962445710414984270000112040345600000000000000000000000000000000001120403456000000000000000000000000000000000011204034561110637982105575329300000000006830112040345610794146080000000000107456026300001120403456000000000000000000001037626457683111204034561054999056000000000000000000000000112040345600000000000000000000000000000000001120403456000000000000000000000000000000000011204034560000000000000000000000000000000000112040345610814608240000000000000000000000001120403456110135617700000000000000000000000011204034561099712362108109192200000000000000112040345600000000000000000000000000000000001116340224000000000000000000001064225729000011204034560000000000000000000000000000006832))
 (.node 1 (.leaf 11204034560993523109000000000000000000000000111044198410669802281096580543104068189100001120403456000000000000000000000000000000000011204034561084083673099649952200000000000000112040345611080716360000000000000000000000001120403456110669585700000000000000000000000011204034561050702076000000000010583725370000112040345600000000000000000000000000000000001120403456000000000000000000000000000000000011204034561096214168000000000000000000000000112040345610998932470000000000000000000000001120403456110029390100000000000000000000000011204034561106844228103876468410586661196833112040345600000000000000000000102716569100001120403456109374692510467976151051218858000011175198720000000000108757400910466011280000)
 (.leaf 11204034561085674940000000000000000000000000112040345610994085230000000000000000000000001120403456000000000000000000000000000000000011204034560000000000000000000000000000000000112040345600000000001036227969000000000000001120403456000000000010696557331011988304000011204034561101964190102723538110246111600000112040345611008529130000000000103383894200001120403456106091146500000000000000000000000011204034560000000000000000000000000000000000112040345611095689180000000000000000000000001120403456110268582310588671441044750209683411204034561042015773106081833500000000000000112040345600000000001018766243000000000000001120403456110464352610740425561045880801000011204034560000000000000000000000000000000000)))
 (.node 2 (.node 1 (.leaf 11204034560000000000000000000000000000000000112040345600000000000000000000000000000000001120403456107763826100000000001032261353000011204034560000000000000000000000000000000000112040345611086269500000000000104685668000001120403456000000000000000000000000000000000011204034560000000000107659520900000000000000112040345600000000000000000000000000000000001120403456000000000000000000001028039550000011204034561063012778000000000010571074390000112040345611088813751088809022107015037500001120403456109996808610495692111057070035000011051991040000000000000000000000000000000000112040345610705473410000000000000000000000001120403456106314283500000000000000000000000011204034560000000000000000000000000000000000)
 (.leaf 11204034561059195558000000000000000000000000112040345600000000000000000000000000000000001120403456000000000000000000000000000000000011204034560000000000000000000000000000000000112040345611131579320000000000000000000000001120403456000000000000000000000000000000000011204034561084351570107209346310489241350000112040345610900389140000000000000000000000001120403456000000000000000000001051408787683511204034561113243182000000000000000000000000112040345611050216420000000000000000000000001120403456000000000000000000000000000000000011204034560000000000000000000000000000000000112040345611050953260000000000000000000000001120403456110975485300000000000000000000000011204034560000000000000000000000000000000000))
 (.node 1 (.leaf 11204034560000000000105491443200000000000000112040345600000000001063341628000000000000001120403456000000000010826127770000000000000011204034560000000000106915661100000000000000112040345610822126380000000000106547196300001120403456000000000000000000001026278164000011204034560000000000106558390310614701680000112040345600000000000000000000000000000000001120403456102509648800000000000000000000000011204034561098400052106481466710797549376836112040345600000000000000000000000000000068371120403456110052602210176925011024874836000011004805120000000000000000000000000000000000112040345600000000000000000000000000000000001120403456000000000000000000000000000000000011204034561081994667000000000000000000000000)
 (.leaf 11204034561060846705000000000000000000000000112040345600000000000000000000000000000000001120403456105747096100000000000000000000000011204034561104142257000000000000000000000000112040345611023121900000000000000000000068381120403456109194495010631319131075863789683911204034561073964151107510497300000000000000112040345611163046380000000000000000000000001117126656000000000000000000001059740039000011204034561057218330000000000000000000000000112040345610905715630000000000000000000000001120403456108530495000000000000000000000000011204034561050883203000000000000000000006840112040345600000000000000000000000000000000001120403456000000000000000000000000000000000011204034560000000000000000000000000000000000))))
 (.node 4 (.node 2 (.node 1 (.leaf 11204034560000000000000000000000000000000000112040345600000000000000000000000000000000001120403456108988787910139209830000000000684111204034561053421327105033760810190896270000112040345600000000000000000000000000000000001120403456109511829700000000000000000000000011204034561049066901000000000000000000000000112040345611068326271024094686103560050600001120403456110556822600000000000000000000000011204034561091610731000000000000000000000000112040345610919513240000000000000000000000001120403456000000000010826138261046042366000011204034560000000000000000000000000000000000112040345610169038370000000000000000000000001120403456000000000000000000000000000000000011204034560000000000000000000000000000000000)
 (.leaf 11204034561110091205000000000000000000000000112040345610923044681032375920103304046200001120403456108516688210538675341042688685000011204034561110639275107018169910675550340000112040345611045527010000000000000000000000001120403456000000000010533440850000000000684211204034561094926161000000000000000000000000112040345600000000000000000000000000000000001120403456000000000000000000000000000000000011204034560000000000000000000000000000000000112040345610711263991093328699105273558500001120403456104582359700000000001040782164684311204034560000000000000000000000000000000000112040345610546277770000000000000000000000001120403456000000000000000000000000000000000011204034561060713947000000000000000000000000))
 (.node 1 (.leaf 11204034561120318443104601244110548437080000112040345611194504871045160159105302741600001120403456110095553700000000000000000000000011204034560000000000000000000000000000000000112040345610701799620000000000103161342700001120403456110150814410460124411061973889000011204034561057965553000000000000000000000000112040345611008945010000000000000000000000001120403456000000000000000000000000000000000011204034561107386774102473893210274793400000112040345611034578720000000000000000000000001120403456000000000000000000000000000000000011204034561040197727000000000000000000000000112040345600000000000000000000000000000000001120403456000000000000000000001043548798000011204034561097776613104975711610406429150000)
 (.leaf 11204034560000000000000000000000000000000000112040345611112555860000000000000000000000001120403456111187403400000000000000000000000011204034561097688849000000000000000000000000112040345610987467840000000000104411104900001116078080000000000000000000000000000000000011204034560000000000000000000000000000000000112040345600000000001095194011000000000000001114112000000000000000000000001029228173000011204034561058672344000000000000000000000000112040345600000000000000000000000000000000001120403456000000000000000000000000000000000011204034560000000000000000000000000000000000112040345610253413010000000000103082970600001120403456109271595900000000000000000000000011204034561033898352000000000000000000000000)))
 (.node 2 (.node 1 (.leaf 11204034561086799712103691247910362488796844112040345600000000000000000000000000000000001120010240000000000000000000001061420995684511204034560000000000000000000010469166560000112040345610592183920000000000106268315800001120403456110752512310659966221082376830684611204034561070982198109692216910594453810000112040345600000000000000000000000000000000001120403456000000000000000000001024296440000011204034560000000000000000000000000000000000110677196810558150000000000000107568470900001120403456000000000000000000000000000000000011204034561042472382000000000010193783550000112040345610597755970000000000102868811500001120403456000000000000000000000000000000000011204034560000000000000000000010359685450000)
 (.leaf 11204034561053153596108523191000000000000000112040345600000000000000000000000000000000001120403456106924691400000000001050256084684711204034561085858755000000000000000000000000112040345610863791420000000000000000000000001120403456000000000000000000000000000000000011204034560000000000104688485710496929380000112040345600000000000000000000000000000000001120403456110742589800000000000000000000000011204034561092608326000000000000000000000000109943193600000000000000000000104789135500001120403456000000000000000000000000000000000011204034560000000000000000000000000000000000112040345600000000000000000000000000000000001120403456108043389910530890710000000000000011204034560000000000000000000010079837700000))
 (.node 1 (.leaf 11204034560000000000000000000000000000000000112040345600000000000000000000000000000000001118175232000000000000000000000000000000000011083448320000000000000000000000000000000000112040345600000000001082734202105791607800001120403456000000000000000000000000000000000011204034560000000000000000000000000000000000112040345611176890260000000000000000000000001120403456000000000000000000000000000000000011204034561096920667000000000000000000000000112040345600000000000000000000000000000000001120403456000000000000000000000000000000000011204034560000000000000000000000000000000000112040345600000000000000000000000000000000001120403456000000000000000000000000000000000011204034560000000000000000000010337448920000)
 (.leaf 10779361280000000000000000000009808374320000111751987200000000000000000000000000000000001110441984000000000000000000000000000000000011204034560000000000000000000010481575206848112040345600000000000000000000000000000000001120403456000000000000000000000000000000000011204034561086924360000000000010336275080000112040345610512138150000000000000000000000001117519872000000000000000000001054253899000011004805120000000000105946273510633070280000112040345610916590981042401985104529476400001120403456000000000000000000001047379221000011204034561076268292000000000000000000000000112040345600000000000000000000107174383200001120403456107502890100000000001042091465000011204034560000000000000000000000000000000000)))))
 (.node 8 (.node 4 (.node 2 (.node 1 (.leaf 11204034561093378800000000000000000000000000111961702400000000000000000000000000000000001090519040000000000010454957030000000000000011171266560000000000000000000010295892110000112040345609794989670000000000107322200500001120403456000000000000000000000000000000000011204034561108656012000000000000000000000000112040345600000000000000000000000000000000001120403456000000000010836550621042147287000011204034560000000000000000000000000000000000112040345600000000000000000000000000000000001120403456105869886900000000000000000000000011204034561082579782104193893310496979200000110834483200000000000000000000000000000000001120403456101842694000000000001024045408000011204034560000000000000000000000000000000000)
 (.leaf 11204034560000000000108381171910247542870000112040345600000000000000000000000000000000001120403456108444913300000000000000000000000011204034560000000000000000000000000000006849112040345610999344090000000000000000000000001120403456000000000000000000000000000000000011204034561082234430109239588600000000000000112040345600000000000000000000000000000000001120403456000000000000000000000000000000000011204034560000000000000000000000000000000000112040345600000000000000000000000000000000001109131264000000000000000000000000000000000011204034561067954406000000000000000000000000112040345611203785680000000000000000000000001120403456000000000000000000001024126328000011204034560000000000000000000000000000000000))
 (.node 1 (.leaf 11204034560000000000000000000000000000000000112040345600000000000000000000000000000068501120403456000000000000000000000000000000685111204034560000000000000000000000000000000000109681049610169049111016242949000000000000001120403456000000000000000000001017446104000010779361280000000000000000000000000000000000111673344000000000000000000000000000000000001120403456000000000000000000000000000000000011204034560000000000000000000010325187630000112040345600000000000000000000000000000000001120403456000000000000000000000000000000000011204034560000000000000000000000000000000000112040345600000000000000000000000000000068521120403456000000000000000000000000000000000011204034560000000000000000000000000000000000)
 (.leaf 11204034560000000000000000000000000000000000112040345600000000000000000000000000000000001120403456000000000000000000000000000000000011204034560000000000000000000000000000000000112040345610929347350000000000000000000000001120403456000000000000000000000000000000685311204034560000000000109199208000000000000000112040345600000000000000000000101817308568541120403456000000000000000000000000000000000011204034560000000000000000000010118329050000112040345600000000000000000000000000000000001120403456000000000000000000000000000000000011204034561088380960000000000000000000000000112040345600000000000000000000000000000068551120403456000000000000000000000000000000685611204034560000000000000000000000000000006857)))
 (.node 2 (.node 1 (.leaf 11204034561106165332000000000000000000000000111791308800000000000000000000000000000000001120403456000000000000000000000000000000000011204034560979876924000000000000000000000000112040345600000000000000000000000000000068581120403456000000000000000000000000000000000011204034560000000000000000000000000000000000112040345600000000000000000000000000000000001120403456110439905010799502331038433152000011204034560000000000000000000000000000000000112040345600000000000000000000000000000000001120403456112038752210250342111034718178000011204034560000000000000000000000000000006859112040345600000000000000000000000000000000001120403456000000000000000000000000000000686011204034560000000000000000000000000000006861)
 (.leaf 11204034561058280529000000000010358256380000111411200000000000001055679473000000000000001120403456000000000010445024920000000000000011204034560000000000000000000000000000000000112040345600000000000000000000000000000000001120403456106152161900000000001041208540000011204034561054191636000000000010285180690000112040345600000000000000000000000000000000001120403456000000000000000000000000000000000011204034561089567491000000000010269368070000112040345600000000000000000000000000000000001120403456000000000000000000000000000000000011204034561063971696000000000000000000000000112040345600000000001091764958000000000000001120403456109928243300000000000000000000000011204034560000000000000000000000000000000000))
 (.node 1 (.leaf 11204034561052213804000000000000000000000000112040345600000000000000000000000000000000001120403456000000000000000000001022866218000010863247360000000000000000000000000000000000112040345600000000000000000000000000000000001120403456000000000000000000000000000000000011204034560000000000000000000000000000000000112040345600000000000000000000000000000000001120403456000000000000000000000000000000000011204034561107205870000000000000000000000000112040345600000000001059888877000000000000001110441984000000000000000000000000000000000011204034560000000000000000000010130354490000110677196800000000000000000000000000000000001120403456000000000000000000000000000000000011204034560000000000000000000000000000000000)
 (.leaf 11204034560000000000000000000000000000000000112040345611046928100000000000000000000000001120403456000000000000000000000000000000000011204034560000000000000000000000000000000000112040345600000000000000000000000000000068621120403456000000000000000000000000000000000011204034560000000000000000000000000000000000112040345600000000000000000000000000000000001120403456000000000000000000000000000000000011204034560000000000000000000000000000000000112040345600000000000000000000000000000000001120403456000000000000000000000000000000000011204034560000000000000000000000000000000000112040345600000000000000000000000000000000001120403456000000000000000000000000000000000011204034560000000000000000000000000000000000))))
 (.node 4 (.node 2 (.node 1 (.leaf 11204034560000000000000000000000000000000000112040345600000000000000000000000000000000001120403456000000000000000000000000000000686311204034560000000000000000000000000000006864109051904000000000000000000000103620007000001120403456000000000000000000000000000000000011204034560000000000000000000000000000006865112040345610634415190000000000103734837468661116733440000000000000000000001067729872000011204034561090168962105851314500000000000000112040345600000000000000000000000000000000001120403456000000000000000000000000000000000011204034560000000000000000000000000000000000112040345600000000000000000000000000000000001120403456000000000000000000000000000000000011204034560000000000000000000010312913370000)
 (.leaf 11204034560000000000104612652600000000000000112040345600000000000000000000000000000000001120403456000000000000000000000000000000000011204034560000000000000000000000000000000000112040345600000000000000000000000000000000001114898432000000000010901214201065642588000011204034560000000000000000000000000000000000112040345600000000001074421721000000000000001120403456000000000000000000000000000000000011204034560000000000104646878200000000000000112040345600000000000000000000000000000000001120403456111013133300000000000000000000000011204034560000000000000000000000000000000000112040345600000000000000000000000000000000001120403456000000000000000000000000000000000011204034560000000000000000000000000000000000))
 (.node 1 (.leaf 11204034560000000000000000000000000000000000112040345600000000001098982674000000000000001120403456000000000010912944620000000000000011204034560000000000000000000000000000000000112040345600000000000000000000000000000000001120403456000000000000000000000000000000000011204034560000000000000000000000000000000000112040345610748206740000000000000000000000001120403456000000000000000000000000000000000011204034560000000000000000000000000000006867112040345600000000000000000000000000000000001120403456000000000000000000000000000000000011204034560000000000000000000000000000000000112040345600000000000000000000000000000000001120403456000000000000000000000000000000000011204034560000000000000000000000000000000000)
 (.leaf 11204034560000000000000000000000000000000000112040345609253533880000000000102455824000001120403456110334800400000000000000000000000011204034561107824439000000000000000000000000112040345600000000000000000000000000000068681120403456000000000000000000000000000000000011204034560000000000000000000000000000000000112040345600000000000000000000104877867300001120403456000000000000000000000000000000000011204034560000000000000000000000000000000000111935488000000000001066660161000000000000001120403456107583341010995220611034155069000011204034561118969200000000000000000000000000112040345610639700180000000000100443176600001120403456000000000000000000000000000000000011204034560000000000104865317500000000000000)))
 (.node 2 (.node 1 (.leaf 11204034560000000000000000000000000000000000112040345600000000000000000000000000000000001120403456000000000000000000000000000000000011204034560000000000000000000010411696936869111817523200000000000000000000000000000000001120403456000000000000000000000000000000000011204034560000000000000000000000000000000000112040345600000000000000000000000000000000001120403456000000000000000000000000000000000011204034560000000000000000000000000000000000112040345600000000000000000000000000000000001120403456000000000000000000000000000000000011204034560000000000000000000000000000006870112040345600000000000000000000000000000000001120403456000000000000000000001030224400000011204034561066065325000000000010182352120000)
 (.leaf 11204034561110369367000000000000000000000000112040345610586456680000000000105233172000001120403456000000000000000000000000000000000011204034560000000000000000000000000000000000112040345600000000000000000000000000000000001120403456000000000000000000000000000000000011204034560000000000000000000000000000000000112040345610819458111086973805000000000000001120403456000000000000000000000000000000000011099176960000000000000000000000000000000000112040345600000000000000000000000000000000001120403456000000000000000000000000000000687111128012801075622864106934703210834935866872112040345600000000001077657207000000000000001120403456110028479810591305470000000000000011204034560000000000000000000000000000000000))
 (.node 1 (.leaf 11204034560000000000000000000000000000000000112040345600000000000000000000000000000000001120403456000000000000000000000000000000000011204034560000000000000000000000000000000000112040345600000000000000000000000000000000001102053376000000000000000000000000000000000011204034560000000000000000000000000000000000112040345600000000000000000000000000000000001120403456000000000000000000000000000000687311204034561041273549103465762200000000006874110048051210405851460000000000106968198400001115684864105804417200000000001038683459000011099176960000000000000000000010564984040000112040345600000000000000000000000000000000001120403456000000000000000000000000000000000011204034560000000000000000000000000000000000)
 (.leaf 11204034560000000000000000000000000000006875111044198400000000000000000000106021978568761110441984000000000000000000000000000000000011204034560000000000000000000000000000000000109681049600000000000000000000000000000000001120403456000000000000000000000000000000000011204034560000000000000000000000000000000000112040345600000000000000000000000000000068771120403456000000000000000000000000000000000011204034560000000000000000000010202551930000110991769600000000000000000000000000000000001120403456000000000000000000000000000000000011204034560000000000000000000000000000000000112040345600000000000000000000000000000000001118961664000000000000000000000000000000000011148984320000000000000000000000000000000000))))))
 (.node 16 (.node 8 (.node 4 (.node 2 (.node 1 (.leaf 11204034560000000000000000000000000000000000112040345600000000001080459002000000000000001120403456000000000000000000000000000000000011204034560000000000000000000000000000000000112040345600000000000000000000000000000000001120403456108901149200000000000000000000000011204034561116698295000000000000000000000000111568486400000000000000000000105317400000001120403456000000000000000000000000000000000011204034560000000000000000000000000000006878112040345610684002181025275802000000000000001120403456000000000000000000000000000000000011204034560000000000000000000000000000000000112040345600000000000000000000000000000000001105199104000000000000000000000000000000000011204034560000000000000000000000000000000000)
 (.leaf 11204034560000000000000000000000000000006879112040345600000000000000000000000000000068801120403456000000000000000000000000000000688111204034560000000000000000000000000000000000112040345600000000000000000000000000000000001120403456000000000000000000000000000000000011204034560000000000000000000000000000000000112040345610473854220000000000106163384700001120403456000000000000000000001039231293000011036262400000000000000000000010602439570000112040345600000000000000000000000000000000001120403456000000000000000000000000000000000011204034560000000000000000000000000000006882112040345600000000000000000000000000000000001120403456107661639000000000000000000000688311204034560000000000103373151900000000000000))
 (.node 1 (.leaf 11204034560000000000109418863700000000000000112040345600000000000000000000000000000000001120403456000000000000000000000000000000000011204034560000000000000000000000000000000000112040345600000000000000000000103239401400001120403456000000000000000000000000000000000011204034560000000000000000000000000000000000112040345600000000000000000000000000000000001120403456000000000000000000000000000000000011196170241098178067105856851010725369256884112040345600000000000000000000000000000000001120403456000000000000000000000000000000000011204034560000000000000000000000000000000000112040345600000000000000000000000000000000001120403456000000000000000000001019849602000011179130880000000000000000000000000000000000)
 (.leaf 11204034560000000000000000000000000000000000112040345600000000000000000000000000000000001120403456000000000000000000000000000000000011204034561116540153104785122410411154156885112040345600000000000000000000000000000000001120403456000000000000000000000000000000000011204034560000000000000000000000000000000000112040345600000000000000000000000000000000001120403456000000000000000000000000000000000011204034561090688851107594425300000000000000112040345600000000000000000000000000000000001120403456000000000000000000000000000000000011204034560000000000000000000000000000000000112040345600000000000000000000103013875500001120403456000000000000000000000000000000000011204034560000000000000000000010291552190000)))
 (.node 2 (.node 1 (.leaf 11204034560000000000109110225810754027320000112040345600000000000000000000102973173400001120403456000000000000000000001015840815688611204034561100052170102155797100000000000000112040345610809299381016189262000000000000001120403456000000000000000000000000000000000011204034560000000000000000000000000000000000112040345600000000000000000000000000000000001120403456000000000000000000000000000000688711204034561034099276000000000010466047290000112040345600000000000000000000103564802400001117519872000000000000000000000000000000000011204034561101012080107791767300000000000000112040345600000000000000000000106549488900001120403456000000000000000000000000000000000011204034560000000000000000000000000000000000)
 (.leaf 11204034560000000000000000000000000000000000112040345611013634260000000000000000000000001120403456000000000000000000001022096148000011099176960000000000000000000000000000000000112040345610944040271108409975104154608000001120403456000000000000000000001028742839000011204034560000000000000000000010331775190000112040345600000000001095806484000000000000001120403456000000000010913921890000000000000011204034561067748969105917416700000000000000112040345600000000000000000000000000000000001120403456000000000000000000000000000000000011204034560000000000000000000010356916920000112040345600000000000000000000000000000000001120010240000000000000000000001038559870000011204034560000000000000000000010403276550000))
 (.node 1 (.leaf 11204034560000000000000000000000000000000000112040345600000000000000000000000000000000001120403456000000000000000000000000000000000011204034560000000000000000000000000000000000112040345600000000000000000000000000000000001120403456108646699000000000000000000000000011204034561093428420108964368900000000000000112040345610877500571061323329000000000000001120403456000000000000000000000000000000000011204034560000000000000000000000000000000000107793612800000000000000000000000000000000001120403456000000000010594912570000000000688811204034561049641185108167618900000000000000112040345611009090701049485325102980566400001120403456000000000000000000000000000000000011204034560000000000000000000000000000000000)
 (.leaf 11204034560000000000000000000000000000000000109051904000000000000000000000000000000000001120403456109022362310234504410000000000000011200102400000000000000000000000000000000000112040345600000000000000000000000000000000001120403456000000000000000000000000000000000011204034561073904127000000000010417902510000112040345600000000000000000000000000000000001120403456000000000010910307450000000000000011204034560000000000000000000000000000000000112040345600000000000000000000103493056068891077936128000000000000000000001033401076000011204034560000000000108015072100000000000000112040345600000000000000000000000000000000001120403456000000000000000000000000000000000011204034560000000000107770040810491464680000))))
 (.node 4 (.node 2 (.node 1 (.leaf 11204034561073931960000000000000000000006890112040345600000000000000000000106561785268911120403456000000000000000000000000000000689211204034560000000000000000000000000000000000112040345600000000000000000000000000000000001120403456000000000000000000000000000000000010936647680000000000000000000000000000000000110048051200000000000000000000000000000000001120403456000000000000000000000000000000000011204034560000000000000000000010249419950000112040345600000000000000000000103699149600001120403456100997605511046873991074610430000011204034560000000000000000000000000000006893111856844800000000000000000000105497277500001118175232000000000000000000000000000000000011204034560000000000000000000000000000000000)
 (.leaf 11204034561109050093000000000000000000000000111935488000000000000000000000104366527068941120403456000000000000000000000000000000000011204034560000000000000000000000000000000000112040345600000000000000000000105181572100001120403456000000000000000000001026164269000011067719680000000000000000000010600074530000112040345600000000001059999606000000000068951120403456000000000000000000000000000000000011204034560000000000000000000010572351300000111712665600000000000000000000106546038200001113587712000000000000000000001048765846689611204034560000000000000000000000000000000000112040345610476594270000000000103037316000001120403456000000000000000000000000000000000011204034560000000000000000000010329025456897))
 (.node 1 (.leaf 11204034560000000000000000000000000000000000112040345600000000000000000000000000000000001120403456106191462500000000001071582409000011163402240000000000000000000010457802870000112040345600000000000000000000000000000000001120403456000000000000000000001077604088000011167334400000000000000000000000000000000000112040345600000000000000000000000000000000001120403456000000000000000000000000000000000011204034560000000000103720775800000000000000112040345600000000000000000000105873409900001120403456000000000000000000001082377810000011204034560000000000000000000010686722710000112040345600000000000000000000105961473068981119354880000000000000000000001082772262000011204034560000000000000000000000000000000000)
 (.leaf 11204034560000000000000000000000000000000000112040345600000000000000000000000000000000001120403456000000000000000000000000000000000011204034560000000000108595626610764482630000112040345600000000000000000000108974346568991118175232000000000000000000001079016844000011004805120000000000000000000000000000000000111358771200000000000000000000000000000000001118175232105032062910735832791074761207000011204034560000000000108469818500000000000000112040345610497058780000000000000000000000001120403456000000000000000000000000000000690011204034560000000000000000000000000000000000112040345600000000000000000000000000000000001120403456000000000010527837261051545621000011179130880000000000000000000000000000006901)))
 (.node 2 (.node 1 (.leaf 11099176960000000000000000000010386552350000111961702400000000000000000000000000000000001114112000000000000000000000000000000000000011204034560000000000105885036700000000000000110913126400000000000000000000000000000000001118961664000000000000000000001075977999000011204034560000000000000000000000000000000000112040345600000000000000000000105038585700001120403456107436089100000000001055277309000011189616640000000000000000000010659867230000112040345600000000000000000000104937904300001120403456000000000000000000000000000000000011204034560000000000000000000010476193646902112040345610697355670000000000107807848200001120403456000000000000000000001073865656690311204034560000000000000000000010517136440000)
 (.leaf 11204034560000000000000000000010598266060000112040345600000000000000000000106072797900001120403456000000000000000000000000000000000011204034560000000000000000000000000000006904112040345600000000000000000000104137852600001120403456000000000000000000001059858849000011204034560000000000000000000010434435710000111044198400000000000000000000107006907700001120403456000000000000000000000000000000690511204034560000000000000000000000000000006906112040345600000000000000000000000000000069071106771968107626007600000000000000000000000011204034560000000000000000000000000000000000112040345600000000000000000000000000000000001118568448000000000000000000000000000000000011204034560000000000000000000000000000000000))
 (.node 1 (.leaf 11200102400000000000000000000010481718710000112040345600000000000000000000000000000069081120403456000000000000000000001066431326000011204034560000000000000000000000000000000000112040345600000000000000000000000000000000001117913088000000000000000000001054808307000011141120000000000000000000000000000000000000112040345600000000000000000000104932578900001120403456000000000000000000000000000000000011204034560000000000000000000000000000000000112040345600000000000000000000000000000000001120403456000000000000000000001081262915000011181752320000000000000000000010738984010000112040345600000000000000000000000000000000001120403456000000000000000000000000000000000011204034560000000000000000000010656027560000)
 (.leaf 11193548800000000000000000000000000000000000111411200000000000000000000000000000000000001117913088000000000000000000001048957907000011204034560000000000000000000000000000000000112040345600000000000000000000106394309800001120403456000000000000000000001092312344000011204034560000000000000000000010854664060000109681049600000000000000000000000000000000001120403456000000000000000000001052670243000011185684480000000000000000000000000000000000112040345600000000000000000000104994478300001120403456000000000000000000000000000000000011204034560000000000000000000000000000000000112040345600000000000000000000000000000000001120403456000000000000000000000000000000000011204034560000000000000000000000000000000000)))))
 (.node 8 (.node 4 (.node 2 (.node 1 (.leaf 11204034560000000000000000000000000000000000112040345600000000000000000000000000000000001120403456000000000000000000000000000000000011204034560000000000000000000000000000000000112040345600000000000000000000000000000000001120403456000000000000000000000000000000000011204034560000000000000000000000000000000000112040345600000000000000000000000000000000001119354880000000000000000000001084633596000011204034560000000000000000000000000000000000112040345600000000000000000000000000000000001120403456000000000000000000000000000000000011204034560000000000000000000010811808150000111358771200000000000000000000105521412900001119617024000000000000000000001086123788000011204034560000000000000000000000000000000000)
 (.leaf 11204034560000000000000000000000000000000000112040345600000000000000000000000000000000001120403456000000000000000000000000000000000011204034560000000000000000000000000000000000112040345600000000000000000000000000000000001120403456000000000000000000000000000000000011204034560000000000000000000000000000000000112040345600000000000000000000000000000000001120403456000000000000000000000000000000000011204034560000000000000000000000000000000000112040345600000000000000000000000000000000001120403456000000000000000000000000000000000011204034560000000000000000000000000000000000112040345600000000000000000000000000000000001120403456000000000000000000000000000000000011204034560000000000000000000000000000000000))
 (.node 1 (.leaf 11204034560000000000000000000000000000000000112040345600000000000000000000000000000000001120403456000000000000000000000000000000000011204034560000000000000000000000000000000000112040345610742676430000000000106542477469091120403456000000000000000000000000000000000011204034560000000000000000000000000000000000112040345600000000000000000000000000000000001120403456000000000000000000000000000000000011171266560000000000000000000010469795566910112040345600000000000000000000000000000000001120403456000000000000000000000000000000000011204034560000000000000000000000000000000000112040345600000000000000000000105038989500001120403456000000000000000000001042573257000010936647680000000000000000000010584534000000)
 (.leaf 11204034560000000000000000000000000000000000112040345600000000000000000000000000000000001120403456000000000000000000000000000000000011204034560000000000000000000000000000000000112040345600000000000000000000000000000000001120403456000000000000000000000000000000000011204034560000000000000000000000000000000000112040345610684107970000000000104781218100001120403456000000000000000000001047420361000011204034560000000000000000000000000000000000112040345600000000000000000000000000000000001120403456000000000000000000000000000000000011204034560000000000000000000000000000000000112040345600000000000000000000000000000000001120403456000000000000000000000000000000000011204034560000000000000000000000000000000000)))
 (.node 2 (.node 1 (.leaf 11204034560000000000000000000000000000000000112040345600000000000000000000000000000000001120403456000000000000000000000000000000000011204034560000000000000000000000000000000000112040345600000000000000000000000000000000001120403456000000000000000000000000000000000011204034560000000000000000000000000000000000112040345600000000000000000000000000000000001120403456000000000000000000000000000000000011204034560000000000000000000000000000000000112040345600000000000000000000103541134000001120403456000000000000000000001049198977000011204034560000000000000000000000000000000000112040345600000000000000000000000000000000001120403456000000000000000000000000000000000011204034560000000000000000000010501661770000)
 (.leaf 11204034560000000000000000000000000000000000112040345600000000000000000000105132372000001106771968000000000010347784180000000000000011204034560000000000000000000000000000000000112040345600000000000000000000000000000000001120403456000000000000000000001036463414000011204034560000000000000000000010544765680000112040345600000000000000000000107924833400001120403456000000000000000000001067576101000011204034560000000000000000000010746877510000112040345600000000000000000000000000000000001120403456000000000000000000000000000000000011204034560000000000000000000010819632490000112040345600000000000000000000107228804700001120403456107517844000000000001075474604000011204034560000000000110776491710522402260000))
 (.node 1 (.leaf 11204034560000000000000000000000000000000000112040345600000000000000000000000000000000001120403456105954392000000000001073528228000011148984320000000000110776371110555215720000110205337600000000000000000000103779008600001120403456000000000000000000000000000000000011204034560000000000000000000010759706546911112040345600000000000000000000106825196700001120403456000000000000000000001066067146000011204034560000000000000000000010672767600000112040345610895462301061215955106373405900001120403456000000000011003389021040458413000011204034560000000000000000000010674358110000112040345600000000000000000000109680070400001120403456000000000000000000001061771820000011204034560000000000000000000000000000000000)
 (.leaf 11204034560000000000000000000000000000000000112040345600000000000000000000105143249000001120403456000000000000000000001064952245000011204034560000000000000000000010732610270000112040345600000000000000000000106349310600001120403456000000000010663204231075303207000011104419840000000000110005164410299703360000111935488000000000000000000000106568033100001120403456000000000000000000000000000000000011204034560000000000000000000000000000000000111568486400000000001103075895106682512800001120403456000000000000000000001087849005000011204034560000000000000000000010859653040000112040345600000000000000000000000000000000001120403456000000000000000000000000000000000011204034560000000000000000000010533155640000))))
 (.node 4 (.node 2 (.node 1 (.leaf 11204034561026977683107391001610932153160000112040345600000000000000000000107822479169121120403456000000000000000000001081772485000011204034560000000000000000000010602879470000112040345600000000000000000000000000000000001107558400109866246710495826331070882892000011204034560000000000000000000000000000000000112040345600000000000000000000000000000000001120403456000000000000000000000000000000000011204034560000000000000000000010735221010000112040345610454887241068428480109125677200001120403456097922408910618719441089242354000011204034560000000000000000000010898619426913112040345600000000000000000000108547091969141120010240000000000000000000001075123311000011204034560000000000000000000000000000000000)
 (.leaf 11204034560000000000000000000000000000000000112040345600000000000000000000000000000000001120403456000000000000000000000000000000000011204034560000000000000000000000000000000000112040345600000000000000000000000000000000001120403456000000000000000000000000000000000011204034560000000000000000000000000000000000112040345600000000000000000000106787771800001120403456000000000000000000001078964844000011204034560000000000000000000010885284890000112040345600000000000000000000108253351700001120403456108904997010249805230000000000000011204034561062423914111499162410754101236915112040345610800910861116181640108354396000001120403456000000000011159477161092939084000010936647680000000000109242873510668528730000))
 (.node 1 (.leaf 11167334400000000000000000000010812108540000112040345600000000000000000000108559945969161119354880000000000000000000001075119041000011204034560000000000000000000010811206610000112040345600000000000000000000107512006600001120403456000000000000000000000000000000000011204034560000000000000000000000000000000000112040345600000000000000000000000000000000001120403456000000000000000000000000000000000011204034560000000000000000000000000000000000112040345600000000000000000000000000000000001120403456000000000000000000001078956405000011036262401094390789104664326510740307880000112040345600000000000000000000106581437600001120403456000000000000000000000000000000000011204034560000000000000000000000000000000000)
 (.leaf 11204034560000000000000000000000000000000000112040345600000000000000000000000000000000001120403456000000000000000000000000000000000011204034560000000000000000000000000000000000112040345600000000000000000000106525750100001120403456000000000010844637231060753383000011204034560000000000103591926810631547960000112040345600000000001116339988108855039800001120403456000000000011169403501067731931000011204034560000000000111676231510784997050000112001024000000000000000000000108218054800001120403456000000000000000000001091092250691711167334400000000000000000000010914999206918112040345600000000000000000000107720113700001120403456000000000000000000001064404825000011204034560000000000000000000010306505220000)))
 (.node 2 (.node 1 (.leaf 11204034560000000000000000000010403936800000112040345600000000000000000000000000000000001120403456000000000000000000001041453675000011204034560000000000000000000000000000000000112040345600000000000000000000000000000000001120403456000000000000000000001082430862000011204034561086492496000000000010445039880000112040345600000000001116873910104429680000001120403456000000000010860825150000000000000011171266560000000000110643799710940866080000111489843200000000000000000000107055728000001120403456000000000000000000001097201608691910905190400000000000000000000010649884036920111607808000000000000000000000108207534100001120403456108141932100000000001089592441000011204034560000000000000000000000000000000000)
 (.leaf 11204034560000000000000000000000000000000000111896166400000000000000000000107510667900001120403456000000000000000000001043650324692111204034560000000000000000000010519298850000112040345610602957750000000000103408023800001120403456000000000000000000000000000000000011204034560000000000000000000000000000000000112040345600000000000000000000104737252700001120403456104012967810753914441095140722000011204034561106024596109334600110855814790000112040345610760630941094356304110181350800001120403456000000000010501027271064842145000010936647680000000000000000000009840755040000112040345600000000001025114741000000000000001120403456000000000011124933131053296505000011185684481074729486110609422110851113380000))
 (.node 1 (.leaf 11204034560000000000000000000010713274860000111607808000000000000000000000107838561469221120403456000000000000000000000000000000000011204034560000000000000000000010485921130000112040345600000000000000000000108279628969231120403456000000000000000000001086721805692411204034560000000000000000000010780510096925110048051200000000001035355554000000000000001120403456000000000010626403401066186858000011204034560000000000000000000010675670490000112040345600000000000000000000107131762500001102053376000000000000000000001037770599000011204034560000000000000000000010539454290000112040345600000000000000000000107393804569261120403456000000000000000000000000000000000011204034560000000000000000000010314393470000)
 (.leaf 11204034560000000000000000000000000000000000112040345600000000000000000000104023163300001120403456000000000010968493980000000000000011204034560000000000000000000000000000000000112040345611123426191080671234110257406500001120403456000000000010639456080000000000000011204034560000000000106286179910331374980000112040345600000000000000000000106895732300001120403456000000000000000000001068145824000010968104960000000000000000000010460221380000112040345600000000000000000000109139023300001120403456000000000000000000001059942289000011204034560000000000000000000000000000000000112040345600000000000000000000108572080469271120403456000000000000000000001068778335000011204034560000000000000000000010645564596928)))))))
 (.node 32 (.node 16 (.node 8 (.node 4 (.node 2 (.node 1 (.leaf 11204034560000000000000000000010578021530000112040345610798430560000000000090657332600001120403456000000000000000000001032556892692911204034560000000000000000000010684638890000112040345600000000001025785830108093129600001120403456000000000000000000000000000000000011204034560000000000103344966200000000000000112040345610249491161060033161103855016300001120403456108113563110594728021094586689000011204034561117050523107419732510940811000000112040345600000000001054226566105642159700001120403456000000000010674075861057799198000011204034560000000000109444721510263893330000111489843200000000000000000000106725909769301107558400000000000000000000001059935630693111204034560000000000110603843710497955340000)
 (.leaf 11204034560000000000110898105510445262530000112040345600000000001109768746000000000000001120403456000000000011137478301038126331000011204034560000000000000000000010943223356932112040345600000000000000000000108895363400001120403456000000000000000000001059047882693311204034560000000000000000000010719139876934111201484800000000000000000000107385976500001096810496000000000000000000001082180088000011204034560000000000000000000010732489750000112040345610610688180000000000109521854700001120403456000000000000000000000000000000000011204034560000000000000000000000000000000000112040345600000000000000000000107536701569351120403456000000000000000000001083636745000011204034561105210561102371887710446663860000))
 (.node 1 (.leaf 11204034560000000000000000000010758054520000112040345600000000000000000000105140606300001120403456000000000000000000001053882969000011204034560000000000000000000000000000000000112040345600000000000000000000000000000000001120403456000000000010493141981043940433000011204034560000000000110425674900000000000000112040345600000000001091239936107767445500001120403456000000000011056606351052744526000011204034561056510549110478470710270403680000112040345600000000001111015057104398323600001120010240000000000000000000001074580951000011204034560000000000000000000010926585090000112040345600000000000000000000109672863600001120403456000000000000000000001070628430000011204034560000000000000000000000000000000000)
 (.leaf 11204034560000000000000000000000000000000000112040345600000000000000000000105460945500001120403456000000000000000000001066908604000011196170240000000000000000000010673574136936112040345610547758190000000000103984656600001120403456000000000010754258371062827841000011204034560000000000000000000010643583090000112040345610380101121053760160105188948800001120403456000000000000000000001078793032000011204034560000000000000000000010705636680000112040345610588031060000000000106580522200001120403456000000000000000000001040510101000011204034560000000000000000000010447941430000112040345600000000000000000000000000000000001120403456000000000010406034670000000000000011204034560000000000106658634100000000000000)))
 (.node 2 (.node 1 (.leaf 11204034560000000000107573999000000000000000112040345611039347821094297059000000000000001120403456000000000010716614490000000000000011204034560000000000104658957810686882100000112040345610657177261107985249105771527900001120403456000000000011163027901043760794000011204034561051052451111646649910593248830000112040345600000000001099306369100460025200001120403456000000000011078245021070743123000011204034560000000000000000000010760398966937112040345600000000000000000000107505944400001120403456000000000000000000001087487221000011204034561064074641000000000010753287110000111751987200000000000000000000107910181500001120403456000000000000000000001065415800000011204034560000000000000000000000000000000000)
 (.leaf 11204034560000000000000000000000000000000000112040345600000000000000000000000000000000001120403456000000000000000000001085290208693811204034561107393306000000000010682597070000112040345600000000000000000000108959145869391120403456110758823210661660721057682316000011204034560000000000106482305610476416010000111201484800000000001097286969105947754700001120403456000000000000000000001071372622000011204034560000000000000000000000000000000000112040345600000000000000000000107332547500001120403456000000000000000000001057211769000011204034560000000000000000000000000000000000112040345600000000001029946579103851599800001120403456111162854310791138891074296670000011204034561082076565106617613810280625970000))
 (.node 1 (.leaf 11204034560000000000104549570300000000000000112040345610919884511093085954104991568400001120403456108170494910822250140000000000000011204034560000000000106807364210454871070000111856844800000000001108201125107620840669401120403456000000000011004518861089302472000011204034560000000000000000000010629789766941112040345600000000000000000000107506120369421120403456000000000000000000001083253055000011204034560000000000000000000010914920040000112040345610332891380000000000105653055800001090519040000000000000000000000000000000000011051991040000000000099887517510427248840000111817523200000000000000000000106785878100001120403456000000000000000000001085309819000011204034560000000000000000000010895135266943)
 (.leaf 11204034561101975844107671181110668753020000112040345600000000000000000000000000000000001120403456000000000000000000000000000000000011204034560000000000000000000010489815990000112040345600000000000000000000106297536500001120403456105984497100000000000000000000000011204034560000000000104757607800000000000000112040345600000000000000000000000000000000001120403456105796182900000000000000000000000011204034560000000000106593454710379003270000112040345610859099301110924486106565517900001120403456000000000000000000000000000000000011204034561062964174000000000010477396430000112040345610581157100000000000101051887500001120403456000000000000000000001091255654000011204034560000000000000000000010805264470000))))
 (.node 4 (.node 2 (.node 1 (.leaf 11204034560000000000000000000000000000000000112040345600000000000000000000000000000000001120403456000000000000000000001068944997694411128012800000000000108166192810569657600000112040345600000000001083239196106245140100001120403456000000000011078830651050346517000011204034560000000000103307385210381129860000112040345600000000000000000000000000000000001120403456000000000010842603000000000000000011204034561046270207110840100910557956830000112040345611020907501108455326105919446600001120403456107458726611153462001081029561000011204034561076461235104942828300000000000000112040345600000000000000000000107019988500001120403456000000000000000000001046328372000011204034560000000000000000000000000000000000)
 (.leaf 11204034560000000000000000000010608862800000112040345600000000000000000000104426276800001120403456000000000000000000001091041510000011204034560000000000000000000010915537680000112040345600000000001038482827104190079200001120403456000000000000000000000000000000000011204034560000000000103628165600000000000000112040345600000000001033342288105250684200001120403456103594678300000000001054468240000011204034560000000000106776661910622321890000112040345600000000001044690397108230878200001120403456107226755100000000001054743870000011204034560000000000107888823500000000000000112040345610775258501053669563106276589100001118568448000000000011115554931051386579694511204034560000000000109691315210257423830000))
 (.node 1 (.leaf 11204034560000000000000000000010500400310000112040345600000000001102065382107777793800001120403456000000000000000000001089161620694611204034561074873502000000000010796980850000112040345600000000000000000000107952222569471120403456000000000000000000001084187803000011204034560000000000000000000010420562180000112040345600000000000000000000108250435800001120403456102835985700000000000000000000000011204034560000000000109929703710671281090000112040345610566279561119465465107299830500001120403456111607344410998251521079471756000011204034561114330860107699870100000000000000112040345611175435651057474635103357643100001120403456000000000000000000000000000000000011204034560000000000000000000010331583560000)
 (.leaf 11204034560000000000108667559000000000000000112040345600000000001040737685000000000000001106771968105290542811035137801036553468000011204034560000000000108585392500000000000000112040345600000000000000000000101740919600001120403456000000000000000000001095064994000011204034560000000000000000000010916325936948112040345600000000000000000000107629110700001120403456105431451300000000001096740387000011204034560000000000000000000010630713386949112040345600000000000000000000105774347700001120403456000000000000000000000000000000000011193548800000000000000000000010816623730000112040345610613457430000000000108414137069501120403456000000000000000000001076888893695111204034560000000000107470861110740295130000)))
 (.node 2 (.node 1 (.leaf 11204034561114844712110242294710507052230000112040345611196505161054676196106353391700001120403456107678707311184075051072660905000011204034560000000000111434103510530678860000112040345600000000000000000000105431896800001120403456000000000000000000000000000000000011204034560000000000000000000010472317280000112040345610757602070000000000105883881900001120403456000000000000000000000000000000000011204034560000000000102498052300000000000000112040345610345664881015061833107125283200001120403456108173046310789683460000000000000011204034561071917528110853889710654552970000112040345600000000000000000000000000000000001120403456106243535600000000000000000000000011204034560000000000110666066210886386696952)
 (.leaf 11204034560000000000104114704910927152590000112040345610829833881059068471108304898769531120403456000000000000000000001094662361000011204034560000000000000000000000000000000000109366476800000000001041730896103431612600001120403456000000000000000000001090355868695411204034561025166818000000000000000000000000112040345611166504751083382641106669736300001120403456106901951611130476691051724317000011204034561104732688111014335010425741376955112040345611173277511068825261106566272800001120403456107200896410700718081073191689000011204034560000000000104256304610331300420000112040345600000000001068168433000000000000001120403456000000000010911731420000000000000011204034560000000000109784554510346576520000))
 (.node 1 (.leaf 11204034561074869974107317307610699469510000111122841600000000001094793979107448870800001120403456000000000011170194781050399901000011204034561025054075000000000010633046470000112040345600000000000000000000105122268000001120403456107429642810418852460000000000000011204034561075751294110782096310473467430000112040345610203623601079110533109744390469561120403456000000000000000000001094002359695711204034560000000000000000000010927897846958108632473600000000000000000000000000000000001112801280105769034010674101031066116345000011193548801025097024108204948210736177780000112040345600000000000000000000108817912300001120403456105206777510257589861068883882695911204034561064071000000000000000000000000000)
 (.leaf 11204034560000000000000000000000000000000000112040345610495868270000000000106615088100001120403456107327680211001807771065388909000011204034560000000000110636543510800860750000112040345600000000001116364014108440201500001120403456111170860810739846741073845180000011204034560000000000108255615400000000000000112040345600000000001090192933000000000000001120403456000000000000000000000000000000000011204034560000000000000000000010600297160000112040345600000000000000000000105787816100001120403456000000000010588486891067954575000011204034561066149890104479106000000000000000112040345610021737101112560212000000000000001120403456104836037910843204880000000000000011204034560000000000111620814310547825180000)))))
 (.node 8 (.node 4 (.node 2 (.node 1 (.leaf 11204034561067087242110711590110704568830000112040345610299669800000000000107552672700001120403456000000000010970583791070270435696011204034560000000000107290212410954196800000112040345600000000000000000000000000000000001120403456110713765410592395981079874492696111036262400000000000000000000010394043750000112040345600000000000000000000108401028769621120403456108215185200000000001056284286000011204034561034697484000000000010319605610000112040345600000000001079314376000000000000001120403456000000000010399189571060080479000011204034560000000000103597295500000000000000112040345610576725391041784583000000000000001120403456106347297711125308520000000000000011204034560000000000107574292610516485840000)
 (.leaf 11204034561061144584109170372110632266920000112040345600000000000000000000107143555400001120403456000000000010938185940000000000000011204034560000000000111617710510597848476963112040345600000000000000000000109114170769641120403456000000000000000000000000000000000011204034560000000000000000000010924921346965112040345600000000000000000000107725623969661120403456000000000011061808861076974964000011204034561068380228000000000010521606040000112040345610754934451100967261000000000000001120403456000000000011070409801074708893000011204034561059594353000000000000000000000000112040345600000000000000000000105903783900001120403456000000000000000000000000000000000011204034561065436196000000000000000000000000))
 (.node 1 (.leaf 11204034561082757650000000000010407713590000112040345610302018611080155754000000000000001120403456110837754711071241850000000000000011204034560000000000105700487310783831440000112040345610404754231094069099105542666100001120403456000000000010925834761024064257000011204034560000000000000000000010817262600000112040345600000000000000000000000000000000001120403456000000000000000000001075223917000011204034561050715867000000000010468593050000112040345610766195281106557639106531484200001120403456000000000011139212641086181697000011204034561022457230102793331310991611646967112040345600000000001051059028108302279769681120403456102786754700000000001099373569696911204034560000000000110018764510949031436970)
 (.leaf 11204034560000000000000000000010749985450000112040345610956395011020162107104480563700001120403456000000000000000000001097620258000011204034561068408171000000000010412711760000112040345611045570291107360822108443731300001120403456000000000010794251060000000000000011204034560000000000000000000000000000000000112040345600000000000000000000105322031300001120403456105375448910626151741029080025000011204034561083153093110863562810367152160000111935488000000000001100247833107843129800001120403456107786256011111774811059920464000011204034560000000000000000000010787477416971112040345600000000000000000000107195767700001120403456103469936310859940151081969321697211204034560000000000000000000010934902876973)))
 (.node 2 (.node 1 (.leaf 11204034560000000000000000000010761444800000112040345600000000000000000000000000000000001116733440000000000000000000001069048078000011204034560000000000000000000010675474160000112040345600000000000000000000107898934600001120403456000000000000000000001067586554000011204034560000000000109302933110569174430000112040345600000000000000000000106580396000001120403456000000000000000000001065021848000011204034561110694158106862477310639190366974112040345600000000001085442464104326302600001120403456111853921310730430531091286336000011204034561099704767110741796910822824540000112040345610769254061084890913000000000000001120403456000000000010944220501035991872000011204034560000000000103963709900000000000000)
 (.leaf 11204034560000000000000000000010517038490000111280128000000000001063964063105466903400001120403456000000000010800072751049160297000011181752321083814699111236279210846619170000112040345610716949871106398098107401348100001117126656000000000010990639381055741064000011204034561071505639105009937110646276800000112040345600000000000000000000110100805869751120403456000000000000000000001095304842000011204034560000000000000000000010845249656976112040345600000000000000000000109491873869771120403456000000000000000000001077666188000011204034560000000000106626338010756376400000112040345610333916801050918099107113043700001120403456109946264010398115821059366061000011204034560000000000000000000010846324616978))
 (.node 1 (.leaf 11204034561049323761000000000010405493720000112040345600000000000000000000000000000000001120403456000000000000000000000000000000000011204034560000000000000000000010272681850000112040345600000000000000000000000000000000001120403456000000000000000000000000000000000011204034561060754749107275532410398565900000112040345611026622431099163710103244369300001116733440000000000011096658021097446207697911075584000000000000109949846810599290280000112040345600000000000000000000105661791969801120403456107624805100000000001078328673000011204034560000000000111705121110418545090000112040345610354378291115034118105895274269811120403456000000000000000000001081337523000011204034560000000000000000000010924455866982)
 (.leaf 11204034560000000000000000000010923217166983111607808000000000000000000000107505171500001120403456109805484710541326141079332292000011204034561042690083000000000010237871546984112040345600000000000000000000103909991900001120403456106005314200000000001044024809000011204034560000000000000000000000000000000000112040345611036397901100466828109007782000001120403456000000000011132422851067685538000011204034561056820659110264555910386911690000112040345610066420871089115206000000000000001120403456000000000000000000001049849115000011204034560000000000000000000000000000000000112040345600000000000000000000000000000000001120403456108260838110168335070000000000000011204034560000000000000000000000000000000000))))
 (.node 4 (.node 2 (.node 1 (.leaf 11204034560000000000000000000010768242800000112040345600000000001068050992103248546800001118568448000000000010779378061083262632000011204034561025109909106574412510325199290000112040345600000000001100475584105224635500001120403456107167524000000000001074614435000011204034560000000000000000000010499204546985112040345610661835790000000000106386098500001120403456107696501700000000001063058000000011204034560000000000111604101310747309386986112040345600000000001117142319104584714400001120403456000000000000000000001101583500000011204034560000000000000000000010683598580000112040345610739564680000000000104418398800001120403456108637877111098122351048801417000011204034561041690563108622910610655942270000)
 (.leaf 11204034561092378091104214026010754020730000112040345600000000001095167692000000000000001120403456000000000000000000000000000000000011204034560000000000000000000000000000000000112040345600000000000000000000103838775600001120403456000000000000000000001049858441000011204034560000000000000000000000000000000000112040345600000000001045448727000000000000001120403456107752790910998532540000000000000011204034560000000000106383655610736051506987112040345610727225830000000000106908634300001120403456000000000011170149831060516415000011204034560000000000000000000010908633076988112040345610416802961068752280109157585469891120403456000000000000000000001074996138699011196170240000000000103585215910679422106991))
 (.node 1 (.leaf 11204034560000000000109220221410736091566992112040345600000000000000000000106768725569931120403456000000000000000000000000000000000011204034560000000000000000000010664696640000112040345600000000000000000000000000000000001120403456000000000010587648030000000000000011204034560000000000000000000010514804540000112040345600000000001076196331103217872400001120403456108304176010647609800000000000000011204034561066618763105400510710684580700000112040345610665640531065496661102964822500001120403456107387139000000000001060664272000011204034561016166177102946339610906599506994112040345611168593301090527219108987698500001120403456000000000000000000001095970900000011204034560000000000000000000010915117460000)
 (.leaf 11204034560000000000000000000010892386110000112040345600000000000000000000108726431269951120403456000000000000000000000000000000000011204034561052579748111275949410661907770000112040345600000000000000000000000000000000001120403456000000000010897688890000000000000011204034561054352026109231776700000000000000112040345610564359581110497113102577987500001120403456000000000000000000000000000000000011204034560000000000000000000000000000000000112040345600000000000000000000000000000000001120403456000000000000000000000000000000000011204034560000000000000000000000000000000000112040345600000000000000000000000000000000001120403456000000000010420798620000000000000011204034561047164902111427712510819872490000)))
 (.node 2 (.node 1 (.leaf 11204034561079154150000000000000000000000000112040345610696945891072828305000000000000001120403456000000000011170952510000000000000011204034561040836469109925823910995930886996112040345600000000000000000000109451707369971118568448000000000000000000001091068716000011204034560000000000000000000010958539850000112040345600000000001093541036000000000000001120403456000000000000000000000000000000000011204034560000000000000000000000000000000000112040345600000000000000000000000000000000001120403456000000000000000000000000000000699811204034560000000000000000000000000000006999112040345600000000001107021215000000000000001120403456111005839010503476741068298952000011204034561074370429110173497600000000000000)
 (.leaf 11204034561089556909111204837610401480160000112040345610638978090000000000000000000000001120403456000000000000000000000000000000000011204034560000000000000000000000000000000000112040345600000000001035932690000000000000001100480512000000000000000000001040020684000011204034560000000000111699177010650215780000112040345600000000000000000000107478918600001120403456000000000011168554551076523046000011204034560000000000000000000010748050110000112040345600000000000000000000000000000000001120403456000000000000000000000000000000000011204034561093412600108468077910590332890000112040345600000000000000000000000000000000001120403456000000000000000000000000000000700011204034560000000000000000000000000000000000))
 (.node 1 (.leaf 11204034561060333054000000000010117593850000109051904000000000001071989444105584117300001120403456000000000000000000001031541639000011204034561067312476111183105910495104040000112040345600000000001110555020000000000000001120403456000000000000000000001090657901700111204034560000000000110628039610913710007002111607808011157907681069431757101428797000001120403456000000000000000000001081500294000011204034560000000000108580653010357959790000112040345600000000000000000000106334418270031120403456000000000000000000000000000000000011204034560000000000000000000000000000000000112040345611145706231046052707103242051600001120403456000000000010909906890000000000000011204034560000000000000000000000000000000000)
 (.leaf 11204034560000000000106942924100000000000000112040345600000000000000000000000000000000001120403456105787332900000000000000000000000011204034561075245654000000000010397415660000112040345600000000000000000000109029526070041120403456105077099711165150091085896881000011204034561077099192107189549110561996630000111411200000000000001016833507106924137500001120403456000000000000000000001052608441000011204034561042367088000000000010622972490000112040345600000000001040281344000000000000001120403456000000000010433415091050576489000011204034560000000000000000000000000000000000112040345610682047890000000000000000000000001120403456105559035300000000001043817305000011204034560000000000000000000000000000000000))))))
 (.node 16 (.node 8 (.node 4 (.node 2 (.node 1 (.leaf 11204034560000000000110361339510709739087005112040345600000000000000000000109054079000001120403456000000000000000000001093094025000011204034561042897516109972716310926579660000111712665600000000000000000000106947291200001120403456000000000000000000001043826480000011204034560000000000110390741610360285070000112040345611064733011064660317104064322600001120403456000000000000000000001036430074000011204034560000000000000000000000000000000000112040345600000000000000000000000000000000001120403456000000000010738710091054579653000011204034560000000000000000000010789901580000112040345600000000000000000000102912802600001120403456000000000011168093441076949088000011204034560000000000104913635910796683447006)
 (.leaf 11160780800000000000000000000010813553440000112040345600000000000000000000102673073500001120403456000000000000000000000000000000000011204034560000000000000000000010467602540000112040345600000000000000000000104664658300001120403456000000000011041644741053910250000011204034560000000000106542955210651275580000112040345610831747131107340506107589414000001120403456000000000000000000000000000000000011204034560000000000101683350700000000000000112040345600000000000000000000000000000000001120403456000000000000000000000000000000000011204034560000000000000000000000000000000000112040345600000000001073752310104610860900001120403456000000000010525823991045900384000011204034560000000000000000000000000000000000))
 (.node 1 (.leaf 11204034560000000000000000000010224762450000112040345600000000000000000000103808117870071120403456099970410411080228411056991728000011204034560000000000111007411710864729707008112040345600000000001116604439107503049700001120403456000000000011169653721068108325000011204034561108797881108603239310927421187009112040345610551711570000000000109229209300001114112000000000000000000000001071062481000011204034560000000000000000000010640129640000112040345600000000000000000000104971475170101120403456000000000000000000000000000000000011204034560000000000000000000000000000000000112040345610491595790000000000107469544700001120403456108234772610969798411030572043701111204034560000000000102500736710521216950000)
 (.leaf 11204034560000000000000000000010143435100000112040345600000000000000000000106074705570121120403456107518119600000000000000000000000011204034560000000000110497124800000000007013112040345600000000001101282253108447793370141120403456105871611610729591671098645831701511204034561072368433000000000010849310070000112040345600000000000000000000000000000070161120403456000000000000000000001082549583000011204034561094827752103967736500000000007017112040345600000000000000000000000000000000001120403456000000000000000000000000000000000011204034560000000000000000000000000000000000112040345600000000000000000000000000000000001120403456000000000010408182151082194875000011204034560000000000107162118410520990020000)))
 (.node 2 (.node 1 (.leaf 11181752321112282382110728547500000000000000112040345600000000001025034211106566116800001120403456000000000000000000001086648792701811204034560000000000110741204510877125970000112040345600000000001109964227109109030870191120403456000000000011168163951053956606000011204034560000000000110182976710889217527020112040345611095783881091716199109297760070211120403456000000000000000000001081210329000011204034560000000000000000000010323182170000112040345600000000000000000000104196918000001120403456000000000000000000001024982289000011204034560000000000000000000000000000000000112040345600000000000000000000103279477900001120403456000000000000000000000000000000000011204034560000000000000000000010644829040000)
 (.leaf 11204034560000000000106150452310428563380000112040345610739488591094845465000000000000001120403456000000000000000000000000000000000011204034561108922545107253050900000000000000112040345600000000001069045042000000000000001120403456106127955711078476231067787838000011204034560000000000110790479710691000560000112040345600000000001080145687109104601070221120403456000000000011154436921095683892000011204034560000000000111688018810730809040000111634022410927316541102298428109117071800001120403456000000000010828241701092832183702311204034561111678885108891807410943068647024112040345611088527101078804349108831323670251120403456109353463611001987071071519516702611204034560000000000000000000000000000000000))
 (.node 1 (.leaf 11204034560000000000000000000000000000007027112040345600000000000000000000000000000000001120403456000000000000000000001060230227000011204034560000000000000000000010743108140000112040345600000000000000000000105801241700001120403456000000000000000000000000000000000011204034561033024460000000000010572223230000112040345600000000001065420325103837116200001120403456000000000010168335070000000000000011204034561088036509109315662800000000000000112040345610704400260000000000103655847900001120403456000000000011163671991087939482000011204034560000000000111702409210675438140000112040345610519955661069898164110000348300001120403456110958487910845742431098364961000011204034561048310987109296652110747825177028)
 (.leaf 11204034561057259853000000000010177669290000112040345600000000000000000000102350409000001120403456105674596700000000001019881463000011204034560000000000000000000000000000000000112040345600000000000000000000000000000000001120403456000000000000000000000000000000000011204034560000000000000000000010627432790000112040345600000000000000000000107743715700001120403456104766647400000000000000000000000011204034560000000000103616086000000000000000112040345600000000000000000000000000000000001120403456000000000000000000000000000000000011204034560000000000000000000000000000000000111791308810632511310000000000103525006100001120403456000000000000000000001071387777702911204034561052726448110825835100000000007030))))
 (.node 4 (.node 2 (.node 1 (.leaf 11204034560000000000110454044110824012877031107793612800000000001072678149105271153000001120403456106478109610498644901092729782000011204034561114465183109169218710858528747032112040345610299428211074170062108453504500001120403456000000000000000000001069180813000011204034560000000000107846251300000000000000112040345600000000000000000000000000000000001120403456000000000000000000000000000000000011204034560000000000000000000000000000000000112040345600000000000000000000105656033900001120403456000000000000000000001058760196703311204034560000000000000000000010833934280000112040345600000000000000000000104108496170341120403456000000000000000000000000000000000011204034560000000000000000000010426067090000)
 (.leaf 11204034561081547491108585707110243138670000112040345610474396460000000000000000000000001120403456106881427211078474140000000000000011204034560000000000110791858610678133300000112040345600000000001092664426108644812700001120403456000000000011139837331074225979703511204034560000000000107402494010914127937036112040345600000000000000000000102246253770371120403456000000000000000000000000000000000011204034560000000000000000000000000000000000112040345600000000000000000000105223407300001120403456000000000000000000001067146176703811204034560000000000000000000010649485697039112040345600000000000000000000000000000000001120403456000000000000000000001084034424000011204034560000000000105570296100000000000000))
 (.node 1 (.leaf 11204034560000000000000000000000000000000000112040345600000000000000000000000000000000001120403456000000000000000000000000000000000011204034561045447586110330191510506222550000111961702400000000001083678759105149922600001120403456000000000011079542901066242793000011204034560000000000110774931910558688870000112040345600000000001107952193105904554600001120403456000000000011044946181092908867704011204034560000000000111694204110694899550000112040345610720259681014994724109167247200001120403456000000000000000000001078906566704111204034560000000000000000000010693759420000112040345600000000000000000000107468422400001120403456000000000000000000001070211819000011204034560000000000000000000010303300150000)
 (.leaf 11204034560000000000000000000000000000000000112040345600000000000000000000000000000000001120403456000000000000000000000000000000000011204034560000000000000000000000000000000000112040345600000000000000000000106140221470421120403456000000000000000000001065620949000011204034560000000000000000000010730624350000112040345600000000000000000000102985882600001120403456000000000010417443180000000000000011204034560000000000000000000000000000000000112040345600000000000000000000000000000000001120403456000000000000000000000000000000000011204034560000000000000000000000000000007043112040345600000000001107979901103959252000001120403456000000000011088909831062607116000011204034560000000000110761670110829712230000)))
 (.node 2 (.node 1 (.leaf 11204034560000000000111711040300000000000000112040345600000000000000000000105429879970441120403456000000000000000000001061402198000011204034560000000000000000000010779947890000112040345600000000000000000000105894113900001120403456108789173600000000001042054370000011204034560000000000000000000000000000000000112040345600000000000000000000000000000000001120403456000000000000000000000000000000000011204034560000000000000000000010516944170000112040345600000000000000000000000000000000001120403456000000000010250878980000000000000011204034560000000000000000000000000000000000112040345610715543430000000000106802161400001120403456000000000011078344641016045709704511204034561034467569103948946010779600117046)
 (.leaf 11204034560000000000000000000010838028817047112040345600000000001062252786106835509870481120403456000000000000000000001059016897000011204034560000000000000000000010822425530000111856844800000000000000000000108170928500001120403456000000000000000000001038386262000011204034560000000000000000000000000000000000112040345600000000000000000000000000000000001120403456000000000000000000001034898583000011204034560000000000000000000010697426580000112040345600000000000000000000106163914800001120403456000000000000000000000000000000704911204034560000000000000000000010054586410000112040345600000000001026886415000000000000001120403456000000000000000000000000000000000011204034560000000000104031489910511428160000))
 (.node 1 (.leaf 11204034560000000000000000000000000000000000112040345600000000000000000000000000000000001120403456000000000000000000000000000000000011204034561061086871000000000010518378867050112040345610629903131107897142104496821000001120403456000000000011080271660000000000705111204034560000000000109921797410380621797052112040345600000000001105313923109374732270531120403456000000000011048938641084457839705411204034560000000000111586747410335717980000112040345600000000001095732036109555668100001120403456000000000000000000001076277041000011204034560000000000000000000010729614257055112040345600000000000000000000000000000000001120403456000000000000000000000000000000000011204034560000000000000000000000000000000000)
 (.leaf 11204034560000000000000000000000000000000000112040345600000000000000000000000000000000001120403456000000000000000000001074100784000011204034560000000000000000000010248378770000112040345600000000000000000000107193891300001120403456000000000000000000000000000000000011204034560000000000000000000000000000000000112040345600000000001107383052000000000070561120403456000000000011040200851089593470705711204034560000000000111711309000000000000000112040345600000000001117065970105460813300001120403456000000000000000000001061994521705811204034560000000000000000000010699063827059112040345610494381480000000000105894264770601118568448106680509900000000001078162729000011120148480000000000000000000010727576390000)))))
 (.node 8 (.node 4 (.node 2 (.node 1 (.leaf 11204034560000000000000000000000000000000000112040345600000000000000000000101725475800001120403456000000000000000000001046646898000011204034560000000000000000000010331434180000112040345600000000000000000000000000000000001120403456000000000000000000000000000000000011204034560000000000000000000010500086630000112040345600000000000000000000106009382500001120403456000000000010412678451028620596000011204034560000000000103722118010401116830000112040345600000000000000000000000000000000001120403456000000000009868224231041872693000011204034560000000000000000000000000000000000112040345600000000000000000000000000000000001120403456000000000011078574281072885274000011204034560000000000111656507810822290037061)
 (.leaf 11204034561016319185111706944310530098260000112040345610161844301081133865109272902300001120403456000000000000000000001008153966000011204034560000000000000000000000000000000000112040345600000000000000000000000000000000001120403456000000000000000000001053261290000011204034560000000000000000000000000000000000112040345600000000000000000000000000000000001120403456000000000000000000001034519606000011204034560000000000000000000010451166120000112040345600000000000000000000000000000000001120403456000000000000000000000000000000000011204034561027286921100639136810429396887062112040345600000000001108056290000000000070631120403456000000000010711371611074079723706411204034560000000000111678862110780830220000))
 (.node 1 (.leaf 11204034560000000000000000000010714266580000111673344010361694500000000000107516576670651120403456000000000000000000000000000000000011204034560000000000000000000010407867490000112040345600000000000000000000000000000000001120403456000000000000000000000000000000000011204034561036087980000000000010472658460000112040345600000000000000000000106656705270661120403456000000000000000000000000000000000011204034560000000000000000000000000000000000112040345600000000000000000000104908511100001120403456000000000010575853650000000000000011204034561109421101104172418510497610710000112040345600000000001045307798000000000000001120403456000000000000000000001063229516000011204034561026888294000000000000000000000000)
 (.leaf 11204034561099847502000000000000000000000000112040345600000000000000000000000000000000001120403456000000000010447373731023489469000011204034560000000000110633015100000000000000112040345610543599791094815895105641024070671118568448000000000000000000001070762212000011204034560000000000000000000000000000000000112040345600000000000000000000098351183300001120403456000000000000000000001049094773706811204034560000000000000000000000000000007069112040345600000000000000000000105642369200001120403456000000000000000000001047715548000011204034560000000000000000000010518805800000112040345600000000000000000000103716350000001120403456000000000000000000000000000000000011204034560000000000000000000010622663120000)))
 (.node 2 (.node 1 (.leaf 11204034561071290388103971763010788334680000112040345600000000000000000000000000000000001120403456000000000000000000000000000000000011204034560000000000000000000000000000000000112040345610991840021046770772104686829800001120403456000000000011019965431056597554000011204034560000000000000000000010354972310000112040345611018627891104998669000000000000001120403456000000000010973570140000000000707011204034560000000000110199166710268776277071112040345600000000001102910849108535138970721120403456104996149600000000000000000000000011204034560000000000000000000010509278200000112040345600000000000000000000105294886200001120403456000000000000000000001052827478000011204034560000000000000000000000000000007073)
 (.leaf 11204034560000000000107776038710468203397074112040345600000000001107857480107408432800001120403456000000000011018325461083474265707511204034561062433209000000000010815372637076112040345600000000000000000000103811291670771120403456000000000000000000001081429243000011204034560000000000000000000000000000007078112040345600000000000000000000000000000000001120403456000000000000000000001076899075000011204034560000000000000000000000000000000000112040345600000000000000000000000000000000001120403456000000000000000000001065650682000011204034561078641237104664326500000000000000112040345600000000000000000000000000000000001120403456000000000000000000000000000000000011204034561068279574000000000000000000000000))
 (.node 1 (.leaf 11204034560000000000106130822910485984547079112040345600000000001108711624107196065470801120403456106113760511021828751083215256708111204034560000000000000000000010098105300000112040345600000000000000000000107593746670821120403456000000000000000000001035227162000011204034560000000000000000000000000000000000111818131400000000000000000000108464505100001120403456000000000000000000000000000000000011204034560000000000108399459010476691370000112040345600000000000000000000000000000000001120403456000000000000000000001027469750000011204034560000000000000000000010244891660000112040345600000000000000000000000000000000001120403456110738082800000000000000000000000011204034560000000000108735401800000000000000)
 (.leaf 11204034560000000000000000000010476109087083112040345600000000000000000000000000000000001120403456000000000000000000000000000000000011204034560000000000108993833910434432617084112040345610597805130000000000108151404570851120403456000000000000000000001029461277000011204034560000000000000000000010426108810000112040345600000000000000000000104195816000001120403456000000000000000000001021967529708611204034560000000000000000000000000000000000112040345610745132660000000000103442549500001120403456000000000000000000000000000000000011167334400000000000000000000010280459190000112040345610865835810000000000000000000000001120094257110036880510566861061049326340000011188136580000000000000000000010424307650000))))
 (.node 4 (.node 2 (.node 1 (.leaf 11204034560000000000000000000000000000000000112040345600000000000000000000104891225900001120403456000000000000000000001075804745708711204034560000000000000000000010500076047088112040345600000000000000000000104782752870891120403456000000000000000000001031495849000011204034561090370463000000000000000000000000112040345600000000000000000000000000000000001120403456000000000000000000000000000000000011204034561050717377000000000000000000000000112040345600000000001078758631000000000000001120403456000000000010915565010000000000000011204034560000000000110803925110523859520000112040345600000000000000000000107700484670901120403456000000000000000000001032836256709111204034560000000000000000000010490274927092)
 (.leaf 11135877120000000000000000000010832795157093112040345600000000000000000000000000000000001120403456000000000000000000000000000000000011204034560000000000000000000000000000000000112040345600000000000000000000104483404800001120403456000000000000000000001046419799709411204034560000000000000000000000000000007095112040345600000000000000000000000000000000001120403456000000000000000000001043687727709611204034560000000000000000000010368116070000112040345600000000001079665440000000000000001120403456000000000010818297001034323017000011067719680000000000000000000000000000000000112040345600000000000000000000106059542000001120403456000000000000000000000000000000000011204034560000000000000000000000000000007097))
 (.node 1 (.leaf 11204034560000000000000000000000000000007098112040345600000000000000000000000000000000001120403456000000000000000000001036366267000011164688711113432131109222140310830528470000112040345600000000000000000000102460217070991120403456000000000000000000000000000000000011204034561090284704000000000010577066520000112040345600000000000000000000000000000000001120403456105949736410483209860000000000000011204034560000000000000000000010401074200000112040345600000000000000000000000000000000001120403456111124644810441266821060480994000011204034560000000000000000000010339875530000112040345600000000000000000000000000000000001120403456000000000000000000000000000000000011204034560000000000106136862700000000000000)
 (.leaf 11204034560000000000109442561500000000000000112040345610656211311106570851107757938371001120403456106556483511080443361064629234710111204034561067629784106115052300000000007102112040345610821770140000000000101133235900001120403456000000000000000000000000000000000011204034560000000000000000000000000000000000112040345600000000000000000000106726176071031120403456000000000000000000000000000000000011204034560000000000000000000000000000000000112040345600000000000000000000103388116100001120403456101684692900000000000000000000000011204034560000000000000000000010507740970000112040345610646910031083069327105309875571041120403456104686633510964324841032588083000011204034560000000000000000000000000000007105)))
 (.node 2 (.node 1 (.leaf 11204034560000000000109254142910238841787106112040345600000000001108072097104105495800001120403456106554264810936261801044816100710711204034560000000000110405809600000000007108112040345610607985881107354531108489395271091120403456000000000000000000001021724050000011204034560000000000000000000010251929110000112040345600000000000000000000105193820000001120403456000000000000000000000000000000000011204034560000000000000000000000000000000000112040345600000000001041670498000000000000001120403456000000000010252758020000000000000011204034560000000000000000000000000000000000112040345611053807771104109529105028782200001120403456000000000000000000001036374502000011204034560000000000000000000009988468420000)
 (.leaf 11204034561069298445110830388510530435417110112040345600000000000000000000106219999771111120403456000000000010989745471077632759711211204034561072998149110412572910763449137113112040345600000000000000000000000000000071141120403456000000000000000000001053681432000011204034560000000000000000000000000000007115112040345600000000000000000000104307784871161120403456110092946810253294901029491165000011204034560000000000000000000000000000000000112040345600000000000000000000103222278300001120403456000000000000000000001025574717000011091312640000000000109087870210720877627117112040345600000000000000000000102426532071181120403456000000000010321880151020512632711911204034560000000000000000000000000000000000))
 (.node 1 (.leaf 11204034560000000000107808502600000000000000112040345610605223011083718395000000000071201120403456105449577410918726471062515763712111204034560000000000000000000000000000000000112040345600000000000000000000000000000000001120403456000000000000000000000000000000000011204034560000000000000000000009909285160000112040345600000000000000000000000000000000001120403456000000000000000000000000000000000011204034560000000000000000000000000000000000112040345600000000001103016178000000000000001120403456106610422310963985101068713816712211204034560000000000109967300410572521747123111995220110618405200000000000106885484100001120403456000000000000000000001081729986000011204034561030357554000000000000000000000000)
 (.leaf 11204034560000000000000000000000000000000000112040345600000000000000000000000000000071241120403456000000000000000000000000000000000011204034560000000000000000000010287526550000112040345610861221741062247753000000000071251115684864105931969300000000001045932940000011135877121060583370000000000000000000007126112040345600000000000000000000000000000071271120403456000000000010740085821046629305000011099176960000000000109751901910756664030000112040345611075410881005961871000000000071281120403456000000000000000000000000000000000011204034560000000000000000000000000000000000112040345600000000000000000000104852621600001120403456000000000000000000001033086986712911204034561074307799000000000010217945910000)))))))))
 (.node 128 (.node 64 (.node 32 (.node 16 (.node 8 (.node 4 (.node 2 (.node 1 (.leaf 11204034560000000000108040028200000000000000112040345600000000001081617888104097775571301120403456000000000000000000000000000000000011204034561066311128000000000000000000000000112040345600000000000000000000000000000071311120403456103229364500000000000000000000713211204034561072004585000000000010434963230000112040345600000000000000000000000000000071331120403456000000000000000000001045649508713411167334400000000000000000000010697137150000112040345600000000000000000000000000000000001120403456000000000000000000000000000000000011204034560000000000000000000000000000000000112040345600000000000000000000000000000071351120403456000000000000000000000000000000000011204034560000000000000000000000000000000000)
 (.leaf 11204034560000000000000000000000000000000000112040345600000000000000000000000000000000001120403456000000000000000000001023696712000011204034560000000000108837260510554472137136112040345610478151871004243884000000000000001120403456000000000010606555961000165646000011204034560000000000000000000010242275750000112040345610667579141096549610000000000000001120403456107562695810917882361035903320000011204034560000000000000000000010369196600000111122841600000000000000000000000000000000001120403456000000000000000000001059682114713711204034561059602188000000000010497098280000112040345600000000000000000000106059052400001120403456000000000000000000000000000000000011204034560000000000000000000000000000000000))
 (.node 1 (.leaf 11204034560000000000000000000000000000000000112040345600000000000000000000000000000000001120403456106558198200000000000000000000713811204034560000000000108354370300000000007139112040345600000000001065158600000000000000001120403456000000000000000000000000000000000011204034561071143067107794535500000000007140112040345610556536700000000000102997992171411120403456000000000000000000001017793798000011204034561043322450000000000010730797297142112040345600000000001016833507000000000071431120403456000000000000000000001051225192000011204034561018338893000000000000000000000000112040345600000000000000000000000000000000001120403456000000000000000000000000000000000011204034560000000000000000000010263258150000)
 (.leaf 11204034560000000000000000000000000000000000112040345600000000000000000000102307534971441120403456000000000010927293330000000000000011204034560000000000000000000000000000007145112040345610663867340000000000103563524871461117126656000000000000000000001072234881000011204034560000000000000000000000000000000000112040345600000000000000000000105217198800001120403456000000000000000000000000000000000011204034560000000000000000000000000000000000112040345600000000000000000000000000000000001120403456111625409500000000000000000000000011204034560000000000000000000000000000000000112040345600000000001094214117104207329671471120403456000000000000000000000000000000714811204034561070840381110006905110442274327149)))
 (.node 2 (.node 1 (.leaf 11179130880000000000000000000000000000007150112040345600000000000000000000000000000000001120403456000000000000000000000000000000715111204034560000000000000000000000000000000000112040345600000000000000000000103774900700001120403456107174770110431401821022859259715211204034560000000000105845610300000000007153112040345600000000000000000000000000000071541120403456000000000000000000000000000000000011204034560000000000000000000000000000000000112040345600000000000000000000000000000071551120403456000000000000000000000000000000000011204034560000000000000000000000000000000000112040345610515230190000000000106168424900001120403456000000000000000000000000000000000011204034560000000000000000000010416832450000)
 (.leaf 11204034560000000000000000000000000000000000112040345600000000000000000000106307572800001120403456000000000000000000000000000000715611204034560000000000107312693909928660977157112040345600000000000000000000000000000071581120403456106363714211074977920000000000715911204034560000000000000000000000000000007160112040345600000000000000000000000000000000001120403456000000000000000000001057105455716111204034560000000000000000000000000000007162112040345610421211340000000000105636797200001120403456000000000010390331200000000000000011204034560000000000000000000000000000000000112040345600000000000000000000000000000000001120403456000000000000000000000000000000000011204034560000000000000000000000000000000000))
 (.node 1 (.leaf 11204034560000000000000000000000000000000000112040345600000000000000000000000000000000001120403456000000000000000000000000000000000011204034560000000000000000000000000000000000112040345600000000000000000000000000000000001120403456000000000010851497021045087796716311204034560000000000000000000000000000007164112040345600000000000000000000000000000071651120403456111151549010504248491075158285716611204034560000000000000000000000000000000000112040345600000000000000000000000000000000001120403456000000000000000000000000000000000011204034560000000000000000000000000000000000112040345600000000000000000000000000000000001120403456104710014200000000000000000000000011204034561012697991110528466800000000000000)
 (.leaf 11160780800000000000000000000010573851417167112040345600000000001070751285000000000071681120403456000000000000000000000000000000000011204034560000000000106204139400000000007169112040345600000000000000000000000000000000001120403456000000000000000000000000000000717011204034560000000000000000000000000000000000112040345600000000000000000000000000000000001120403456000000000000000000000000000000000011204034560000000000000000000000000000000000112040345600000000000000000000102363687471711120403456000000000000000000000000000000000011204034560000000000000000000000000000000000112040345600000000000000000000000000000000001120403456000000000000000000000000000000000011204034560000000000000000000000000000000000))))
 (.node 4 (.node 2 (.node 1 (.leaf 11204034560000000000000000000000000000000000112040345600000000001041657076102655352000001120403456000000000000000000001065588904000011204034561063497773000000000000000000007172112040345600000000000000000000000000000071731120403456000000000000000000000000000000717411204034560000000000000000000000000000000000112040345600000000000000000000105232246600001120403456000000000000000000000000000000000011204034561053907464107914786200000000007175112040345600000000001048441782000000000071761120403456099465268600000000000000000000000011204034560000000000000000000010742999390000112040345600000000001088600565000000000000001117913088108052178610383754531038340509717711204034560000000000109383841210445644520000)
 (.leaf 11204034560000000000101198824700000000000000112040345600000000001092119586103452072700001120403456000000000000000000000000000000717811204034560000000000000000000000000000007179112040345600000000000000000000000000000071801120403456000000000000000000000000000000000011204034560000000000000000000000000000000000112040345600000000000000000000000000000000001120403456000000000000000000000000000000000011204034561091681219105501509610757458907181112040345600000000000000000000000000000000001120403456000000000000000000001026507992000011204034560000000000000000000010355870240000112040345600000000001063417125000000000000001120403456000000000010873898800000000000000011204034560000000000000000000010200258087182))
 (.node 1 (.leaf 11204034561067088802000000000000000000007183112040345610521780011066575436000000000071841120403456000000000000000000000000000000718511204034560000000000000000000000000000000000112040345600000000000000000000000000000000001120403456000000000000000000001055574970000011204034560000000000000000000000000000007186112040345600000000000000000000000000000000001120403456000000000000000000000000000000718711204034560000000000106633552210439390540000112040345600000000000000000000000000000071881120403456000000000000000000001033341695000011204034560000000000000000000000000000000000112040345600000000000000000000000000000000001120403456000000000000000000000000000000000011204034561053829416000000000000000000000000)
 (.leaf 11204034560000000000000000000000000000000000112040345600000000000000000000000000000000001120403456000000000000000000000000000000000011204034560000000000000000000000000000000000112040345600000000001034630778000000000000001120403456000000000000000000000000000000718911204034560000000000000000000010359548710000112040345600000000001082252486000000000000001120403456106404851900000000000000000000719011156848641040951695108013687900000000000000112040345600000000000000000000104494640300001120403456000000000000000000001044263894000011204034561100220314000000000000000000000000112040345600000000001016833507000000000000001120403456000000000010606170080000000000000011204034560000000000000000000000000000000000)))
 (.node 2 (.node 1 (.leaf 11204034561046990620000000000010349578860000110677196800000000000000000000107273550971911120403456000000000000000000000000000000719211204034560000000000000000000010419609737193112040345600000000001108243094107039309300001120403456000000000000000000000000000000000011204034560000000000000000000010487518180000112040345600000000000000000000000000000000001120403456000000000010914952641068738785719411167334401070127341000000000010366262707195112040345600000000000000000000104085346771961120403456000000000010418584030000000000000011204034560000000000109320266100000000007197112040345600000000000000000000000000000071981120403456106438538911058335451032532913719911204034560000000000110967329910418966530000)
 (.leaf 11204034560000000000104481790400000000007200112040345600000000000000000000000000000000001120403456000000000000000000000000000000000011204034561110307008000000000000000000000000112040345600000000000000000000104015601572011120403456000000000000000000000000000000720211204034560000000000000000000000000000000000112040345600000000000000000000104714841872031120403456103380788911010658271032127554720411204034561102724220000000000000000000000000112040345600000000000000000000000000000000001120403456109120282400000000000000000000000011204034560000000000000000000000000000000000112040345600000000000000000000000000000072051120403456111910971600000000000000000000000011204034560000000000000000000000000000000000))
 (.node 1 (.leaf 11204034560000000000000000000000000000000000112040345610326451611038603623000000000000001120403456000000000000000000001068411967000011204034560000000000000000000010193752850000112040345600000000000000000000000000000000001120403456000000000000000000001061204372720611204034560000000000000000000000000000007207112040345600000000000000000000000000000000001120403456000000000000000000000000000000000011204034560000000000000000000000000000000000112040345611187185330000000000000000000000001120403456000000000000000000000000000000000011204034560000000000000000000000000000000000112040345610877997851068219603107122324972081120403456000000000000000000000000000000000011204034560000000000000000000000000000000000)
 (.leaf 11204034560000000000107303130900000000007209112040345600000000001083247165104610746500001120403456000000000011022839581066001077000011204034560000000000000000000000000000000000112040345600000000000000000000000000000072101120403456000000000000000000000000000000721111204034560000000000000000000000000000000000112040345600000000000000000000106041775200001120403456000000000000000000000000000000000011204034560000000000107322592510249266987212112040345600000000001090674649000000000000001120403456000000000000000000001051799295721311204034561067230704111122097110396235480000112040345600000000000000000000000000000072141120403456000000000000000000000000000000000011204034560000000000000000000000000000000000)))))
 (.node 8 (.node 4 (.node 2 (.node 1 (.leaf 11204034560000000000000000000000000000000000112040345600000000000000000000000000000000001120403456000000000000000000000000000000000011204034560000000000000000000000000000000000112040345610966408901048921611106073448700001120403456000000000010621923890000000000000011204034560000000000000000000000000000000000112040345600000000000000000000000000000072151120403456108043733810501799021044515799721611204034560000000000000000000000000000000000112040345600000000001077410582102041874472171120403456000000000000000000001051874204721811204034560000000000000000000000000000000000112040345600000000000000000000000000000000001120403456000000000000000000000000000000721911204034560000000000109696757310495053067220)
 (.leaf 11204034560000000000000000000000000000000000112040345600000000000000000000000000000000001120403456106506236600000000001044907313000011204034560000000000107775996700000000000000112040345600000000001091401207000000000072211120403456000000000011010832331016907915000011163402241040407845111103739210813292950000112001024010749696520000000000000000000000001120403456000000000000000000001049071449000011204034560000000000000000000000000000000000112040345600000000000000000000000000000000001120403456000000000000000000001039165016722211204034560000000000000000000000000000000000112040345600000000000000000000000000000072231120403456000000000000000000000000000000000011204034560000000000000000000010652308060000))
 (.node 1 (.leaf 11204034560000000000000000000010323162890000112040345610693474270000000000104027283100001120403456105875856200000000001051193336722411204034560000000000109602322510840970137225112040345600000000000000000000000000000000001120403456000000000010168871940000000000000011204034560000000000000000000000000000000000111489843200000000000000000000105592353100001120403456000000000000000000001054136818000011204034560000000000109957553800000000007226112040345600000000001104591192104028471672271120403456106259418610812546611046648010000011204034561084388247105842925900000000000000112040345600000000001097030068000000000072281120403456000000000000000000000000000000000011204034560000000000000000000000000000000000)
 (.leaf 11204034560000000000000000000000000000000000110362624000000000000000000000000000000000001120403456000000000000000000000000000000000011204034560000000000000000000000000000000000112040345600000000000000000000000000000000001120403456000000000000000000000000000000000011204034560000000000000000000000000000000000112040345600000000000000000000000000000000001120403456000000000000000000001031774598722911204034561048438158000000000010415637710000110913126410596255080000000000000000000000001120403456000000000000000000000000000000000011204034561024869928100016366610690934887230112040345600000000001066815350000000000072311120403456000000000011105698050000000000000011204034560000000000000000000000000000000000)))
 (.node 2 (.node 1 (.leaf 11204034560000000000000000000000000000000000112040345600000000000000000000000000000000001120403456000000000000000000000000000000000011204034560000000000000000000000000000000000112040345600000000000000000000000000000000001120403456000000000000000000000000000000000011204034561067420664000000000010446365487232112040345600000000000000000000000000000072331100480512000000000010903378460000000000000010968104961047672245109221511210544000700000110677196810623266731016833507000000000000001120403456000000000000000000000000000000000011204034560000000000000000000000000000000000112040345600000000000000000000000000000000001120403456000000000000000000000000000000000011204034560000000000000000000000000000000000)
 (.leaf 11204034560000000000000000000000000000000000112040345611106550040000000000000000000000001120403456000000000000000000000000000000000011179130880000000000000000000000000000000000112040345600000000000000000000000000000000001120403456104161439500000000001030879322000011204034560000000000000000000000000000000000112040345600000000001048864568000000000000001120403456000000000000000000000000000000723411204034560000000000000000000000000000000000112040345600000000001085270498104994826900001120403456000000000000000000000000000000000011204034560000000000000000000000000000000000112040345600000000000000000000000000000000001120403456110156138900000000000000000000000011204034560000000000000000000000000000000000))
 (.node 1 (.leaf 11204034560000000000000000000000000000000000112040345600000000000000000000000000000000001120403456000000000000000000000000000000000011204034561061106433000000000010409989030000112040345600000000000000000000103928590200001120403456110150757010635026891078409013000011204034560000000000000000000010597693067235112040345610683220950000000000107018784172361120403456107204802100000000000000000000723711204034560000000000000000000000000000007238112040345600000000000000000000000000000000001120403456000000000000000000000000000000000011204034560000000000000000000000000000000000112040345600000000000000000000000000000000001120403456000000000000000000000000000000000011204034560000000000000000000000000000000000)
 (.leaf 11204034560000000000000000000010342893030000112040345600000000000000000000000000000000001120403456000000000000000000001011889849723911204034560000000000000000000000000000000000112040345600000000000000000000000000000000001120403456108665945810365098261047558211724011204034561108705002105780850210725881507241112040345600000000001083342166102557138700001111228416000000000000000000000000000000000011204034560000000000000000000000000000000000112040345600000000000000000000000000000000001120403456000000000000000000000000000000000011204034560000000000000000000000000000000000112040345600000000000000000000000000000000001120403456000000000000000000000000000000000011020533760000000000000000000000000000000000))))
 (.node 4 (.node 2 (.node 1 (.leaf 11204034560000000000000000000000000000000000112040345600000000000000000000000000000000001120403456000000000000000000000000000000000011204034560000000000000000000000000000000000112040345600000000000000000000000000000000001120403456000000000000000000000000000000000011204034560000000000000000000000000000000000112040345600000000000000000000000000000000001120403456109035411610671777381024842379724211196170241062459415000000000010523140437243112040345600000000000000000000104421600772441120403456000000000000000000000000000000724511204034560000000000000000000000000000000000112040345600000000000000000000000000000000001120403456000000000000000000000000000000000011204034560000000000000000000000000000000000)
 (.leaf 11204034560000000000000000000000000000000000112040345600000000000000000000000000000000001120403456000000000000000000000000000000000011204034560000000000000000000000000000000000112040345600000000000000000000000000000000001120403456000000000000000000000000000000000011204034561070186942000000000010595494280000112040345600000000000000000000000000000000001120403456107460596410968293700000000000000011204034560000000000000000000000000000000000112040345600000000000000000000000000000000001120403456000000000000000000000000000000000011204034560000000000000000000000000000000000112040345600000000000000000000000000000000001120403456000000000000000000000000000000000011204034560000000000000000000000000000000000))
 (.node 1 (.leaf 11204034560000000000000000000000000000000000112040345600000000000000000000102090464400001120403456104106363200000000001056969940000011204034561080014259000000000010552602210000112040345600000000000000000000104950220972461120403456000000000000000000000000000000724711099176960000000000000000000010675249510000112040345600000000000000000000000000000072481120403456000000000010809610600000000000724911204034560000000000000000000000000000000000112040345600000000000000000000000000000000001120403456000000000000000000000000000000000011156848640000000000103620112500000000000000112040345600000000000000000000000000000000001120403456000000000010216653460000000000000011204034560000000000000000000000000000000000)
 (.leaf 11204034560000000000000000000010308723750000112040345600000000000000000000000000000072501120403456000000000000000000000000000000725111204034560000000000000000000000000000000000112040345600000000000000000000000000000000001120403456000000000000000000000000000000000011204034560000000000000000000000000000000000112040345600000000000000000000000000000000001120403456000000000000000000000000000000000011204034560000000000000000000000000000000000112040345600000000000000000000000000000000001120403456000000000010888908111026197546000011204034560000000000000000000000000000000000112040345610252827820000000000106917218900001120403456000000000000000000000000000000000011204034560000000000000000000010473585590000)))
 (.node 2 (.node 1 (.leaf 11204034560000000000000000000000000000007252112040345600000000000000000000000000000000001120403456000000000000000000000000000000000011204034560000000000000000000000000000000000112040345600000000000000000000000000000000001120403456000000000000000000000000000000000011204034560000000000000000000000000000000000112040345600000000000000000000000000000000001109131264109239653500000000000000000000000011204034560000000000000000000000000000007253112040345600000000000000000000000000000000001120403456000000000010978274051048393138725411204034560000000000109762083610647509120000112040345600000000000000000000000000000072551120403456000000000000000000000000000000725611204034560000000000000000000010578486297257)
 (.leaf 10968104960000000000000000000010704328870000112040345600000000000000000000000000000000001120403456000000000000000000000000000000000011204034560000000000000000000000000000000000112040345600000000000000000000000000000000001120403456000000000000000000000000000000000011204034560000000000000000000000000000000000111751987200000000000000000000000000000000001120403456000000000000000000001023780770725811204034560000000000000000000010428958660000112040345600000000000000000000106063514000001120403456106235702300000000001042069159000011204034560000000000000000000010418873497259112040345600000000000000000000000000000000001117519872000000000000000000001080735247726011204034560000000000000000000000000000000000))
 (.node 1 (.leaf 11204034560000000000000000000000000000000000112040345600000000000000000000000000000000001120403456000000000000000000000000000000000011204034560000000000000000000000000000000000112040345600000000001059207722105849875472611120403456000000000000000000001058245610000011204034561062790228000000000010549576737262112040345610671548880000000000102749859600001120403456000000000010544044051070652230000011204034560000000000000000000000000000000000112040345600000000000000000000000000000000001120403456000000000000000000000000000000000011204034560000000000000000000000000000000000112040345600000000000000000000000000000000001120403456000000000000000000000000000000000011204034560000000000000000000000000000000000)
 (.leaf 11204034560000000000000000000000000000000000112040345610718269650000000000000000000000001120403456000000000000000000001056532349726311204034560000000000000000000010408426820000109366476800000000000000000000000000000000001120403456000000000000000000000000000000000011204034560000000000000000000000000000000000112040345600000000000000000000000000000000001120403456000000000000000000000000000000726411204034560000000000000000000000000000007265112040345610599499630000000000103412429772661120403456000000000000000000000000000000000011204034561094104509000000000000000000000000112040345600000000000000000000000000000000001120403456000000000000000000000000000000000011204034560000000000000000000000000000000000))))))
 (.node 16 (.node 8 (.node 4 (.node 2 (.node 1 (.leaf 11204034560000000000000000000000000000000000112040345600000000000000000000000000000000001120403456111045209810794905371049190278000011204034560000000000000000000010492080000000112040345610678735650000000000104916068400001120403456000000000000000000000000000000000011204034561067839885000000000010557540187267112040345600000000000000000000104073988300001120403456000000000000000000000000000000000011204034560000000000000000000000000000000000112040345600000000000000000000000000000000001120403456000000000000000000000000000000000011204034560000000000000000000000000000000000112040345610444963851099342125106577044000001120403456105964955010851950001058620964000011204034560000000000105715586800000000007268)
 (.leaf 11204034561067534288000000000010386663417269112040345600000000000000000000000000000072701120403456000000000000000000001033940846000011204034560000000000107127305700000000000000112040345600000000000000000000000000000000001120403456000000000000000000000000000000000011204034560000000000000000000000000000000000112040345610252610380000000000102620287100001120403456000000000000000000000000000000000011204034560000000000000000000000000000000000112040345600000000000000000000000000000000001120403456107274764800000000000000000000000011204034561081951323000000000000000000000000112040345600000000000000000000000000000000001120403456000000000000000000000000000000000011204034560000000000000000000000000000000000))
 (.node 1 (.leaf 11204034560000000000000000000010326950280000111568486410801798160000000000106133035100001120403456000000000000000000000000000000000011204034561054090805000000000010406244417271112040345600000000000000000000000000000000001120403456000000000000000000000000000000000011204034560000000000000000000000000000000000112040345610847113030000000000000000000000001120403456000000000000000000000000000000000011204034560000000000000000000000000000000000112040345600000000000000000000000000000000001120403456000000000000000000000000000000727211204034560000000000000000000010410516617273112040345600000000000000000000000000000000001120403456000000000000000000000000000000000011204034560000000000000000000000000000000000)
 (.leaf 11204034560000000000000000000000000000000000112040345600000000000000000000000000000000001120403456000000000000000000000000000000000011204034560000000000000000000000000000000000112040345600000000000000000000000000000000001120403456000000000000000000000000000000000011204034560000000000000000000000000000000000112040345600000000000000000000000000000000001119617024000000000000000000000000000000000011204034560000000000000000000010688046707274112040345600000000000000000000000000000000001120403456000000000000000000000000000000000011204034560000000000000000000000000000000000112040345600000000000000000000000000000000001117913088109075236200000000000000000000000011204034560000000000000000000000000000000000)))
 (.node 2 (.node 1 (.leaf 11204034561049251954000000000010162319630000112040345600000000000000000000000000000000001118175232000000000010945347721057405604000011204034560000000000107408533700000000000000112040345600000000000000000000000000000000001120403456000000000000000000000000000000000011204034560000000000000000000000000000000000112040345600000000000000000000000000000000001120403456000000000000000000000000000000000011204034560000000000000000000000000000000000112040345600000000000000000000000000000000001120403456000000000000000000000000000000000011204034560000000000000000000000000000007275112040345600000000000000000000000000000000001120403456000000000000000000000000000000000011204034560000000000000000000000000000000000)
 (.leaf 11204034560000000000000000000000000000000000112040345600000000000000000000000000000000001120403456000000000000000000000000000000000011204034560000000000000000000000000000000000112040345610490630430000000000105876356600001086324736000000000000000000001069962840000011156848640000000000000000000010742916720000112040345600000000000000000000000000000000001120403456108872812300000000000000000000000011204034560000000000000000000000000000000000112040345600000000000000000000000000000000001120403456000000000000000000000000000000000011204034560000000000000000000000000000000000112040345600000000000000000000000000000000001120403456000000000000000000000000000000000011204034560000000000000000000010282181990000))
 (.node 1 (.leaf 11128012801067783094000000000010387220020000112040345600000000000000000000106662188300001109131264103843960900000000001073981551727611160780800000000000000000000010771555980000112040345610452896120000000000000000000000001120403456000000000000000000000000000000000011204034560000000000000000000000000000000000112040345600000000000000000000000000000000001120403456000000000000000000000000000000000011204034560000000000000000000000000000000000111568486410673316441057618919105480674600001120403456000000000000000000000000000000000011204034560000000000000000000000000000000000112040345600000000000000000000000000000000001120403456000000000000000000000000000000000011204034560000000000000000000000000000000000)
 (.leaf 11204034560000000000109701087910463781680000112040345600000000000000000000107019474200001120403456000000000000000000001057793653727711204034560000000000000000000000000000007278110991769600000000000000000000104957049472791120403456000000000000000000000000000000000011204034560000000000000000000000000000000000112040345600000000000000000000000000000000001120403456000000000000000000000000000000000011204034561089436096000000000000000000000000112040345600000000000000000000000000000000001120403456000000000000000000000000000000000011204034561022859346000000000010477691870000112040345600000000000000000000000000000000001120403456106745681900000000001044842537000011204034560000000000000000000000000000000000))))
 (.node 4 (.node 2 (.node 1 (.leaf 11204034560000000000000000000000000000000000112040345600000000000000000000000000000000001120403456000000000000000000000000000000000011204034560000000000000000000000000000000000112040345600000000000000000000103323604000001120403456108722028100000000000000000000000011204034560000000000000000000000000000000000112040345600000000000000000000000000000000001120403456000000000010716983590000000000000011160780800000000000000000000000000000000000112040345600000000000000000000105864720100001108344832000000000000000000001050629442000011204034561070030494105911712510321300870000112040345600000000000000000000000000000000001120403456110033672900000000000000000000000011204034560000000000000000000000000000000000)
 (.leaf 11204034560000000000000000000000000000000000112040345600000000000000000000000000000000001120403456000000000000000000000000000000000011104419840000000000000000000000000000000000112040345600000000000000000000000000000000001120403456000000000000000000000000000000000011204034560000000000000000000000000000007280112040345600000000000000000000000000000000001120403456108412710700000000000000000000000011204034560000000000000000000000000000000000112040345600000000000000000000000000000000001120403456000000000000000000000000000000000011204034561042409434106328794110452419047281112040345610994325471029839205104532990600001120403456000000000000000000000000000000000011204034561087756862000000000010250009180000))
 (.node 1 (.leaf 11204034560000000000000000000000000000000000112040345610580924231025275802106375217600001120403456107422129600000000000000000000000011204034560000000000000000000000000000000000112040345600000000000000000000000000000000001120403456000000000000000000000000000000000011204034560000000000000000000000000000000000112040345600000000001096773691105332205300001120403456000000000000000000000000000000000011204034561069029079103465762200000000007282112040345600000000000000000000000000000000001120403456000000000000000000000000000000000011204034560000000000108366848300000000000000112040345610933932081048173347106711982400001120403456106549415300000000001028559365000011204034560000000000000000000000000000000000)
 (.leaf 11204034561008244110108082977800000000000000112040345600000000000000000000105984984200001120403456000000000010828386400000000000000011204034560000000000000000000000000000000000112040345600000000000000000000000000000072831120403456111001762509934930441048014155728411120148481074198550000000000010600891210000112040345600000000001062380293000000000000001120403456000000000000000000001065102006000011204034560000000000000000000010244129510000112040345600000000001054696328000000000000001120403456000000000000000000000000000000000011204034561035055577110539691800000000000000112040345600000000000000000000000000000072851120403456111222733210561593021058379569728611204034561061818458000000000000000000007287)))
 (.node 2 (.node 1 (.leaf 11189616641096466564105292129910775423277288111358771200000000001093711430108040599600001120403456107664296110168871940000000000000011204034560000000000105494798709999855317289112040345610930922781083826609000000000072901120403456000000000000000000000000000000000011204034561088092474000000000000000000000000112040345600000000000000000000000000000000001120403456000000000000000000000000000000000011204034561099518918107671181110261871060000112040345600000000000000000000105153904400001120403456104402528100000000001035369295000011204034561089443511106994094600000000000000112040345610842593581011021880101479310600001120403456000000000010720582300000000000000011204034561119068971103123507010226675247291)
 (.leaf 11204034560000000000000000000000000000000000112040345600000000000000000000104967461300001116078080108217629000000000001066122682000011204034560000000000000000000000000000000000112040345600000000000000000000000000000000001120403456107993739410501161481057787242729211204034561094899864104440182910512756850000112040345600000000000000000000000000000000001120403456000000000000000000000000000000729311204034560000000000000000000010527229900000112040345610911090431045106472000000000072941120403456108882044800000000000000000000000011204034561087158018102597373510339186620000112040345600000000001096632867000000000000001120403456000000000000000000000000000000000011204034561052691954000000000000000000007295))
 (.node 1 (.leaf 11204034560000000000000000000000000000000000112040345610853339531021611658000000000000001120403456108487696900000000000000000000000011204034560000000000102161165800000000000000112040345600000000000000000000000000000000001120403456000000000000000000000000000000000011204034561041091416000000000000000000000000112040345610901845191090662485000000000000001120403456106784224200000000000000000000729611204034561100032518101349148610235766320000112040345610941670790000000000000000000000001120403456000000000000000000000000000000000011204034560000000000105968083900000000000000112040345600000000000000000000000000000000001118568448110126756910940358591065667616000011099176960000000000000000000010714440490000)
 (.leaf 11204034561065498742107166564410663711830000112040345610865059151043106628106160762600001117913088000000000000000000001082476686000011204034561080919549000000000010625017600000112040345600000000000000000000000000000000001120403456110024354210435294131049649588000011204034560000000000000000000000000000000000112040345600000000000000000000000000000000001120403456000000000010612763530000000000000011204034560000000000000000000000000000000000111044198400000000000000000000000000000000001120403456111023020310488612131016470609000011204034561065860962104138193010678675680000112040345600000000000000000000000000000000001120403456104060917100000000000000000000000011204034561073096790000000000000000000000000)))))
 (.node 8 (.node 4 (.node 2 (.node 1 (.leaf 11204034560000000000000000000000000000000000110048051200000000000000000000105323901172971120403456000000000000000000000000000000000011204034560000000000000000000000000000007298112040345610892756391068136556104317399400001120403456108810194610245510271032816737000011204034561102443350101844412010247745970000112040345611116876771033677832103524539000001120403456000000000000000000000000000000000011204034561086756076108537892010534813950000112040345600000000000000000000103935368600001120403456000000000000000000000000000000000011204034560000000000000000000000000000000000112040345600000000000000000000000000000000001120403456111571144600000000000000000000000011204034560000000000000000000000000000000000)
 (.leaf 11204034561108675514108007102910602839600000112040345611087671641063581542105804240500001120403456111908069510922505941054969036000011179130881102905536108095938210848413240000112040345600000000000000000000000000000000001120403456000000000000000000000000000000729911204034561073361979107879050800000000000000112040345610740412221084654145000000000000001120403456000000000000000000000000000000730011204034560000000000000000000000000000000000111634022410979774240000000000000000000000001120403456000000000000000000000000000000730111204034561102715919108780134110245607890000112040345610698986590000000000105265504100001120403456000000000000000000000000000000000011204034561099290390107730614400000000007302))
 (.node 1 (.leaf 11204034560000000000000000000000000000000000112040345600000000001065685405000000000000001120403456000000000010942014290000000000000011204034561091765246109900569000000000000000110991769600000000000000000000000000000000001120403456109079674910524515371062654244000011204034560000000000000000000010553157180000112040345600000000000000000000000000000000001099431936107146446800000000000000000000730311204034561060335235000000000000000000000000112040345600000000000000000000000000000000001120403456107023990700000000000000000000000011204034560000000000110119076500000000000000112040345600000000000000000000000000000000001120403456000000000000000000000000000000000011067719681053878271107328967810541885750000)
 (.leaf 11204034561074527237000000000000000000000000112040345610702800890000000000000000000000001120403456108080365200000000000000000000000011204034561078095088104374416200000000000000111568486411080342151105681921104206993400001118961664110448989210936728421058550434000011051991041089221832109174209910573307280000111817523211147587541061304874000000000000001120403456000000000010752148640000000000000011204034560000000000109043054000000000000000111122841610831171760000000000096699407000001120403456109155513310981245710000000000000011204034561061820706000000000000000000000000111358771200000000000000000000105197373073041118961664108371380110622175541055971741730511200102401069652336104942828300000000000000)))
 (.node 2 (.node 1 (.leaf 11204034561068260565000000000000000000000000112040345600000000000000000000000000000000001120403456000000000000000000000000000000000011204034560000000000000000000000000000000000112040345610904909471070221125000000000000001120403456000000000000000000000000000000000011204034561085764681109554192910371991390000112040345610686503330000000000000000000000001120403456106728110300000000000000000000000011204034561059005758000000000000000000000000112040345600000000000000000000000000000000001120403456000000000000000000000000000000000011004805121099002456000000000000000000000000111817523200000000000000000000000000000000001120403456000000000000000000000000000000000011204034561059912348102342359800000000000000)
 (.leaf 11204034561071493518000000000000000000007306112040345610840432251068767379000000000000001120403456000000000000000000000000000000000011204034560000000000000000000000000000000000112040345610751294590000000000000000000000001120403456106684935800000000000000000000730711204034561101417909102745013010490242750000112040345610235290931076664834103504153000001120403456000000000000000000000000000000000011204034560000000000000000000000000000000000112040345600000000000000000000000000000000001100480512000000000000000000001068125805000011051991041078776931000000000010345614080000112040345610742492630000000000000000000000001120403456109183726900000000000000000000000011204034561078989775000000000000000000000000))
 (.node 1 (.leaf 11204034561033241088000000000000000000000000112040345600000000000000000000105279399973081120403456000000000011010214720000000000000011204034560000000000000000000000000000000000112040345610998062700000000000104840392300001118568448108500050800000000001055170869000011204034561101063671106356812010496506140000112040345610670912100000000000000000000000001120403456106697022900000000000000000000000011204034560000000000000000000010464916750000112040345610617443031016887194000000000000001120403456000000000010325772470000000000000011204034561065018209000000000010640682080000112040345600000000000000000000101588299873091120403456000000000000000000000000000000000011020533761067098860000000000000000000000000)
 (.leaf 11204034561099698616104067057610493493080000112040345600000000000000000000000000000000001120403456000000000000000000000000000000000011179130881081996101000000000010319907680000111607808010505317200000000000106361541400001120403456108551019810430596511023731286000011204034561101520947105779675810573908717310112040345600000000001098220621000000000000001120403456000000000000000000000000000000000011204034561043625379000000000000000000000000112040345610674799130000000000000000000000001120403456106696163900000000000000000000000011204034561058077558000000000000000000000000112040345600000000000000000000000000000000001120403456000000000010923362220000000000000011204034561090052464110246053800000000000000))))
 (.node 4 (.node 2 (.node 1 (.leaf 11185684481061997857000000000010350305670000112040345610684956300000000000103941799100001120403456000000000000000000000000000000000011204034560000000000000000000010572000380000112040345610758342780000000000000000000073111120403456109111031110661115461050517586000011204034561059006882000000000000000000000000112040345610767330300000000000000000000000001120403456000000000000000000000000000000000011204034560000000000000000000000000000000000112040345610600345870000000000000000000000001120403456102527043400000000000000000000000011204034561120262835000000000000000000000000112040345611204034560000000000000000000000001120403456109006571110655578981068951886000011204034561082930458000000000000000000000000)
 (.leaf 11204034561071601412000000000010389165860000112040345610698448710000000000000000000000001120403456110210327200000000000000000000000011204034561091366212000000000000000000000000112040345600000000000000000000000000000000001120403456108564786800000000000000000000000011204034561072419494106002141710585343467312112040345610724875091060516345104662847500001120403456109054389600000000000000000000000011204034561115800806000000000000000000000000112040345600000000000000000000000000000000001120403456106203553800000000000000000000000011204034560000000000000000000000000000000000112040345610993517270000000000000000000000001120403456108024522200000000000000000000000011204034561049092570000000000000000000000000))
 (.node 1 (.leaf 11120148480000000000000000000000000000000000112040345610734149450000000000000000000000001120403456107202015400000000000000000000000011204034561033782522000000000010578450790000112040345610816106860000000000000000000000001120403456111982334310276648780000000000000011204034560000000000000000000010236468480000112040345611005401850000000000000000000000001120403456110200164500000000000000000000000011204034560000000000000000000000000000000000112040345610777879890000000000104770612900001120403456105588549700000000000000000000731311204034561102024594106164880710510675670000112040345610924168311058836945102609562400001120403456110677629310552902421073731623731411204034561089166064102414837400000000007315)
 (.leaf 11204034560000000000000000000000000000000000111935488010791114640000000000105642179900001120403456109305375110403752970000000000000011204034561074436187000000000000000000007316112040345610912552581055219778107738374400001120403456000000000000000000000000000000731711204034560000000000107887774900000000000000112040345600000000001065688760000000000000001120403456109278995210465224691054314328731811204034561072244936000000000000000000000000112040345610600120720000000000105490489000001119354880111597483400000000001026536146000011036262401092013716000000000010575659050000112040345600000000000000000000000000000000001120403456107679597400000000000000000000000011204034560000000000000000000000000000000000)))
 (.node 2 (.node 1 (.leaf 11204034561077182697000000000000000000000000112040345610648260930000000000000000000000001120403456000000000000000000000000000000000011204034561077566790000000000000000000000000112040345610929736510000000000000000000000001120403456110782430510512033120000000000000011204034561107863403106130319610667507957319112040345610566147360000000000103981573900001120403456105754006700000000000000000000000011167334400000000000000000000010387508020000111489843200000000000000000000000000000000001120403456111164142700000000000000000000000011204034561114797799105795781910648456410000112040345610905932850000000000000000000000001120403456104946666900000000000000000000000011204034561084608666000000000010720770470000)
 (.leaf 11204034561048876245103842914010575737087320112040345610698340160000000000000000000000001120403456110389512710261616391028978391000011204034561056834920102311489710236986660000112040345611098254310000000000000000000000001120403456111432541910369930100000000000000011204034561078312399000000000010067444590000112040345600000000000000000000000000000000001120403456107133029200000000001063301151000011204034560000000000000000000000000000000000112040345610755587420000000000000000000000001120403456110829675400000000001029660144000011204034561099982853103916733700000000007321110048051200000000000000000000000000000000001109917696000000000000000000000000000000000011204034561088306819000000000000000000000000))
 (.node 1 (.leaf 11204034561108919173000000000000000000000000112040345610738788141076771789000000000000001120403456111725827010483813841055321533000011204034561098699959101688719400000000000000112040345610962117440000000000000000000000001120403456109945525600000000000000000000000011204034560000000000000000000000000000000000112040345600000000000000000000000000000000001120403456000000000000000000000000000000000011204034560000000000107820833810339244210000112040345610809273290000000000103237729400001090519040000000000000000000000000000000000011204034561067137834000000000000000000000000112040345610777067460000000000000000000000001120403456000000000000000000001033118197000011204034561094786853000000000000000000000000)
 (.leaf 11204034561113495854100844489910334294720000112040345610687322980000000000101863544500001120403456109033408200000000000000000000000011204034561090665073000000000000000000000000112040345600000000000000000000000000000000001120403456111097412110436434981025255139732211204034561068274238105778333600000000000000112040345611018985871034147594103924043800001120403456000000000000000000000000000000000011204034561100072394104940815010460934380000112040345600000000000000000000000000000000001120403456106273850400000000000000000000000011204034561048046578000000000000000000000000112040345611055716630000000000000000000000001120403456109604618110303223891053296408732311204034560000000000000000000000000000000000)))))))
 (.node 32 (.node 16 (.node 8 (.node 4 (.node 2 (.node 1 (.leaf 11204034560000000000108412650100000000000000112040345600000000000000000000000000000000001093664768000000000000000000001029216479000011175198720000000000000000000000000000000000112040345600000000000000000000000000000000001120403456109388020300000000000000000000000011204034560000000000000000000010221414190000112040345610600831571073589990000000000000001120403456000000000000000000000000000000000011204034561038456520107663589400000000000000112040345600000000001079862572000000000000001120403456107796354610671366341045176430000011204034561106539501000000000000000000000000112040345611180564231076658543108418172273241120010240111920419910399055351025442316000011204034560000000000000000000000000000000000)
 (.leaf 11204034560000000000000000000000000000000000112040345610621997701039623678000000000000001120403456000000000000000000000000000000732511204034560000000000000000000000000000000000111568486411107171930000000000000000000000001120403456000000000000000000000000000000000011204034561100044525000000000000000000000000112040345610658812960000000000000000000000001120403456110523865700000000000000000000000011204034561104926029099134556110340974250000110362624000000000000000000000106969235600001107558400000000000010697438131050519131000011204034560000000000108513565100000000000000112040345611076741930000000000000000000000001110441984107410820100000000000000000000000011112284160000000000000000000000000000000000))
 (.node 1 (.leaf 11204034561067520321000000000000000000000000112040345610791290300000000000000000000000001120403456107570098800000000000000000000732611083448321067711531103500658810604255800000112040345600000000001077174023000000000000001120403456000000000000000000000000000000000011204034560000000000000000000000000000000000112040345610653011231060331795000000000000001120403456108242496700000000000000000000000011204034561099017157000000000000000000000000112040345611025967161036402452104485873600001120403456000000000000000000001027083091000010994319360000000000000000000010546004020000112040345610957975360000000000000000000000001120403456106523946600000000000000000000000011204034560000000000000000000000000000000000)
 (.leaf 11204034561092598678000000000000000000000000112040345610750629290000000000000000000000001120403456105134112010837351731029662865000011204034561104891418106202629410653240350000112040345610810787560000000000000000000000001120403456000000000000000000000000000000000011204034561106339698000000000000000000000000111961702410991983541055384194106772028200001120403456000000000010705415701046030032000011204034560000000000000000000000000000007327112040345611103148231016887194000000000000001120403456112025879010501429921062114643000011204034561119975811105785380010657825260000110991769600000000000000000000105475598500001120403456000000000000000000000000000000732811204034561052575990000000000000000000000000)))
 (.node 2 (.node 1 (.leaf 11204034560000000000000000000000000000000000112040345611051324741032469873104971885300001120403456000000000000000000001040191107000011120148481080570101000000000010745426250000112040345610766906710000000000000000000000001120403456000000000000000000000000000000000011204034561117137464103361072310391453120000112040345611020819861007800654101906435900001120403456000000000000000000000000000000000011204034561066335648000000000000000000000000112040345610690101630000000000097578832400001120403456109805710310061766201019544882000011204034560000000000000000000000000000000000112040345600000000000000000000000000000000001120403456105047028200000000000000000000732911204034561070773297109925766300000000000000)
 (.leaf 11204034560000000000000000000000000000000000112040345600000000000000000000000000000000001120403456000000000000000000000000000000000011204034561095554955104152956910524969420000112040345610551928000000000000000000000073301120403456106683628010882016871072786411000011204034560000000000000000000000000000000000112040345600000000000000000000000000000000001120403456106175389900000000000000000000000011171266560000000000000000000010544914390000112040345610884379080000000000000000000000001086324736000000000000000000001070278284000011204034561036046238000000000000000000000000112040345600000000000000000000000000000000001120403456108780503800000000000000000000000011204034561090530516108750354500000000000000))
 (.node 1 (.leaf 11204034561058710244000000000000000000000000111607808000000000000000000000102500473400001120403456000000000000000000001033836904000011204034561052778491109249896100000000000000112040345600000000000000000000103535860700001120403456110339804800000000000000000000000011204034561066679119000000000000000000007331112040345600000000001090622115107408658600001120403456000000000000000000001060040577000011204034561114120778100553237510174426600000112040345600000000000000000000000000000073321120403456110301251600000000000000000000000011204034561100302461000000000000000000000000112040345600000000000000000000000000000000001120403456000000000010856230290000000000000011204034561063875445000000000000000000000000)
 (.leaf 11067719680000000000000000000010402824410000111856844800000000000000000000000000000000001120403456000000000000000000000000000000733311204034560000000000000000000000000000000000112040345600000000000000000000000000000000001120403456106437438310827432200000000000000011204034561095799643000000000000000000000000112040345600000000000000000000000000000000001120403456000000000000000000000000000000000011204034560000000000000000000000000000000000112040345610787056910000000000000000000000001120403456000000000000000000000000000000000011204034561067350963000000000000000000000000112040345600000000000000000000000000000000001120403456000000000000000000001057062269000011204034560000000000000000000000000000007334))))
 (.node 4 (.node 2 (.node 1 (.leaf 11204034560000000000000000000010399150920000112040345610574298570000000000000000000000001120403456000000000010827421711050980947000011204034560000000000000000000000000000000000112040345611181103450000000000000000000000001120403456000000000000000000000000000000000011204034560000000000000000000000000000000000112040345610919438441062631952106080578500001105199104105026274800000000000000000000000011204034561078362487108308253910554949960000112040345611193511431029382865105292631100001120403456111648893100000000000000000000000011204034560000000000000000000000000000000000112040345600000000000000000000000000000000001120403456000000000000000000000000000000733511204034560000000000000000000000000000000000)
 (.leaf 11156848641065869166106684219410700373450000112040345600000000000000000000101704553500001120403456000000000000000000000000000000000011204034561120403456000000000000000000000000112040345600000000000000000000000000000000001120403456111102147900000000000000000000000011204034561112388934110483980900000000000000112040345600000000000000000000000000000000001120403456000000000000000000000000000000000011204034560000000000105033425210379035460000112040345610708696401045327931000000000073361120403456000000000000000000000000000000000011204034560000000000000000000000000000000000112040345600000000000000000000000000000000001120403456000000000000000000000000000000000011204034560000000000000000000000000000000000))
 (.node 1 (.leaf 11204034560000000000000000000000000000000000112040345600000000000000000000000000000000001120403456111634758100000000000000000000000011204034560000000000000000000000000000007337112040345600000000000000000000000000000073381120403456110414122700000000000000000000000011189616640000000000000000000010261506200000112040345600000000000000000000000000000073391120403456000000000000000000000000000000000011204034560000000000000000000000000000000000112040345600000000000000000000000000000073401120403456106562212100000000000000000000000011204034561063561443104803241800000000000000112040345600000000000000000000000000000000001120403456000000000000000000000000000000000011204034561068572437000000000000000000000000)
 (.leaf 11204034560000000000000000000000000000000000112040345610726911591016887194000000000000001120403456110077267800000000000000000000000011204034561118761209104243553910507280580000112040345600000000000000000000000000000000001120403456109315637600000000000000000000000011204034560000000000000000000000000000000000112040345610749976241032590669105715279100001105199104000000000000000000000000000000000011204034560000000000000000000010235936750000112040345600000000000000000000000000000000001120403456000000000010748059190000000000000010936647680000000000000000000000000000000000112040345610407142640000000000106534009600001120403456107718366110494417041050462986000011204034561052123844104303280810512986580000)))
 (.node 2 (.node 1 (.leaf 11163402241058514219000000000010594613830000112040345600000000000000000000000000000000001120403456000000000000000000001034372624000011204034561118656418000000000000000000000000112040345600000000000000000000000000000000001120403456000000000000000000000000000000000011204034560000000000000000000000000000000000112040345600000000000000000000000000000000001120403456000000000000000000000000000000000011204034560000000000000000000000000000000000112040345600000000000000000000000000000000001120403456000000000000000000000000000000000011204034560000000000000000000000000000000000112040345600000000000000000000000000000000001120403456000000000000000000000000000000000011204034560000000000000000000000000000000000)
 (.leaf 11204034560000000000000000000000000000007341112040345600000000000000000000000000000000001120403456000000000000000000000000000000000011204034560000000000000000000000000000000000112040345600000000000000000000000000000000001120403456000000000000000000000000000000000011204034560000000000000000000000000000000000112040345600000000000000000000000000000000001120403456000000000000000000000000000000000011204034561063724031000000000000000000000000112040345600000000000000000000000000000000001120403456000000000000000000000000000000000011204034560000000000000000000010360811830000112040345600000000000000000000000000000000001120403456000000000000000000000000000000000011204034561051963152000000000000000000007342))
 (.node 1 (.leaf 11204034560000000000000000000000000000000000112040345600000000000000000000000000000000001120403456104060601700000000000000000000734311204034560000000000000000000000000000007344112040345600000000001084696507000000000000001120403456000000000000000000000000000000000011204034560000000000108398033000000000000000112040345600000000000000000000000000000000001100480512000000000010574159150000000000000011204034560000000000000000000000000000000000112040345610601486890000000000102818528100001120403456000000000000000000000000000000000011204034560000000000000000000000000000000000112040345600000000000000000000000000000000001120403456000000000000000000000000000000000011204034560000000000000000000010364768050000)
 (.leaf 11204034561113784374104209328410542313680000112040345600000000000000000000000000000073451120403456000000000000000000000000000000000011204034560000000000000000000000000000000000112040345600000000001030053954000000000000001120403456000000000000000000000000000000000011204034560000000000000000000000000000000000112040345611091695880000000000000000000000001120403456000000000000000000000000000000000011204034560000000000000000000000000000007346112040345600000000001075088615000000000000001120403456000000000000000000000000000000000011204034560000000000000000000000000000007347111044198400000000001057501479104920586700001120403456000000000000000000000000000000000011204034560000000000106364026200000000000000)))))
 (.node 8 (.node 4 (.node 2 (.node 1 (.leaf 11204034560000000000000000000000000000000000112040345600000000000000000000000000000000001120403456111874365700000000000000000000000011204034561070067496000000000000000000000000112040345600000000000000000000000000000000001120403456106563285000000000001034610922000011204034560000000000000000000000000000000000112040345600000000000000000000000000000000001120403456000000000000000000000000000000000011204034560000000000000000000000000000007348112040345600000000000000000000000000000000001120403456000000000000000000001047109417000011204034560000000000000000000010488498687349112040345600000000000000000000000000000000001120403456000000000000000000000000000000000011204034560000000000000000000000000000000000)
 (.leaf 11204034560000000000000000000000000000000000112040345600000000001065452202000000000000001120403456108638127110161892620000000000000011204034560000000000000000000000000000000000112040345600000000000000000000000000000000001120403456000000000000000000000000000000000011204034560000000000000000000000000000000000112040345600000000001073581602000000000073501120403456000000000000000000000000000000000011204034560000000000000000000000000000007351112040345600000000000000000000000000000000001120403456000000000000000000000000000000000011204034560000000000000000000000000000000000112040345600000000000000000000000000000000001120403456000000000000000000000000000000000011204034560000000000000000000000000000000000))
 (.node 1 (.leaf 11204034560000000000000000000000000000000000112040345600000000000000000000000000000000001120403456000000000000000000000000000000000011204034560000000000000000000010422731570000112040345600000000000000000000000000000073521120403456000000000000000000000000000000000011204034560000000000000000000000000000000000112040345600000000000000000000000000000000001120403456000000000000000000000000000000735311204034560000000000000000000000000000000000112040345600000000000000000000000000000000001120403456000000000000000000000000000000000011204034560000000000000000000010231709777354112040345610903306031021557971000000000000001120403456000000000000000000000000000000000011204034560000000000000000000000000000000000)
 (.leaf 11204034561037828113000000000000000000000000112040345600000000000000000000000000000000001120403456000000000000000000000000000000000011204034560000000000000000000000000000000000112040345600000000000000000000000000000000001120403456000000000000000000001024714597735511204034560000000000000000000000000000000000112040345610913397491089793635000000000000001120403456107283374000000000000000000000735611204034560000000000000000000000000000007357112040345610910908951084919434105378371973581120403456000000000000000000000000000000000011204034560000000000000000000000000000000000112040345600000000000000000000106179112200001120403456000000000000000000000000000000735911204034560000000000000000000000000000000000)))
 (.node 2 (.node 1 (.leaf 11204034560000000000000000000000000000007360112040345600000000001078212952000000000000001120403456000000000000000000000000000000000011204034560000000000000000000000000000000000112040345600000000000000000000105808426000001120403456000000000000000000000000000000000011204034561082391685000000000000000000000000112040345600000000000000000000000000000000001086324736106700573010244168091038677079736111204034560000000000000000000000000000000000112040345600000000000000000000000000000000001120403456000000000000000000000000000000000011204034560000000000000000000000000000000000112040345600000000000000000000000000000000001120403456000000000000000000000000000000000011204034560000000000000000000000000000000000)
 (.leaf 11204034560000000000000000000000000000000000111791308800000000000000000000000000000000001120403456000000000000000000000000000000000011204034560000000000108906131000000000000000112040345600000000000000000000000000000000001120403456000000000000000000001017044273000011204034560000000000000000000010572430000000112040345611178068431050444982106102814600001120403456103535112500000000001027681185000011204034560000000000000000000000000000000000112040345610681616381037556725000000000000001120403456110944035600000000000000000000000011204034560000000000000000000000000000000000112040345600000000000000000000102877993400001120403456000000000000000000000000000000000011204034561070039805000000000010229546800000))
 (.node 1 (.leaf 11204034560000000000000000000000000000000000112040345600000000000000000000102348899973621112801280000000000000000000001069722135000011204034560000000000000000000000000000000000112040345600000000000000000000000000000000001120403456106065739100000000001067697855000011204034561027613875000000000000000000000000112040345610891194831080726179000000000000001120403456000000000000000000000000000000000011204034561074575798105742598110276162477363112040345610999407111057467924000000000000001120403456000000000010789318560000000000000011204034560000000000107822972900000000000000112040345600000000000000000000000000000000001120403456111786009500000000000000000000000011204034561117588402000000000000000000000000)
 (.leaf 11204034561078192849000000000000000000000000112040345600000000000000000000000000000000001120403456000000000000000000000000000000736411204034560000000000000000000000000000000000109943193600000000000000000000000000000000001120403456000000000000000000000000000000000011204034560000000000000000000000000000000000112040345611009493861037315133000000000000001120403456000000000000000000000000000000000011204034560000000000000000000000000000000000112040345600000000000000000000000000000073651120403456000000000000000000000000000000000011160780800000000000000000000000000000000000110362624000000000000000000000000000000000001120403456109155906610434354610000000000000011204034560000000000110139088600000000000000))))
 (.node 4 (.node 2 (.node 1 (.leaf 10779361280000000000000000000010237799750000112040345600000000000000000000000000000000001120403456000000000000000000000000000000000011204034561040720975106800233800000000000000112040345600000000000000000000000000000000001120403456101059238300000000000000000000000011112284160000000000000000000000000000000000112040345600000000000000000000103531662800001120403456000000000000000000000000000000000011204034560000000000109796875310422645140000112040345611124007741054260121105963433873661120403456000000000000000000000000000000736711204034560000000000000000000000000000000000112040345600000000000000000000000000000073681120403456000000000000000000000000000000000011204034560000000000000000000000000000000000)
 (.leaf 11104419840000000000000000000010462011350000112040345600000000000000000000000000000000001120403456000000000000000000000000000000000011204034560000000000000000000000000000000000111751987200000000000000000000000000000073691120403456000000000000000000000000000000000011204034560000000000000000000010585197490000112040345600000000000000000000000000000073701117913088000000000000000000000000000000000011204034560000000000000000000000000000000000112040345600000000000000000000000000000000001120403456000000000000000000000000000000000011204034560000000000000000000010424540120000112040345600000000000000000000107739306300001099431936000000000000000000000000000000000011204034560000000000000000000010234526177371))
 (.node 1 (.leaf 11204034560000000000000000000010288039300000112040345600000000000000000000104276606973721120403456000000000010552801760000000000000011204034561070442526000000000010704584230000112040345600000000000000000000000000000000001102053376000000000000000000001076922810000011160780800000000000000000000010387251760000112040345600000000000000000000000000000000001099431936000000000000000000000000000000000011204034560000000000000000000010740376177373112040345600000000001076971438000000000000001120403456103389070210857383720000000000000011104419841051507013000000000000000000000000112040345600000000000000000000000000000073741120403456000000000000000000000000000000000011204034560000000000000000000000000000000000)
 (.leaf 11200102401060565032000000000010829150930000111122841610599341420000000000100669692100001120403456000000000000000000001049935917000011204034560000000000000000000010366063357375111817523200000000000000000000106553459600001120403456104884480500000000001083307252000011204034560000000000000000000010812374337376112040345600000000000000000000000000000000001120403456000000000000000000001054576542000011204034560000000000000000000000000000000000112040345600000000000000000000105406230873771120403456000000000000000000001049725198000011204034560000000000000000000010608736530000112040345600000000000000000000000000000073781120403456000000000000000000000000000000737911204034560000000000000000000000000000007380)))
 (.node 2 (.node 1 (.leaf 11204034560000000000000000000000000000007381112040345600000000000000000000000000000073821120403456093154297310169945690000000000738311204034561013126414103402679800000000007384112040345600000000000000000000104661666300001116078080000000000000000000001060018215000011204034560000000000000000000000000000000000112040345600000000000000000000000000000000001120403456000000000000000000000000000000738511204034560000000000000000000000000000000000112040345600000000000000000000107252909000001120403456000000000000000000000000000000000011204034560000000000000000000000000000000000111607808000000000000000000000000000000000001112801280000000000000000000000000000000000011204034560000000000000000000000000000000000)
 (.leaf 11204034560000000000000000000000000000000000112040345600000000000000000000000000000000001120403456000000000000000000000000000000000011181752320000000000000000000010458706920000112040345600000000000000000000106886237800001116733440000000000000000000001049605405000011204034560000000000000000000010795863460000112040345600000000000000000000106428612000001120403456000000000000000000000000000000000011204034560000000000000000000000000000000000112040345600000000000000000000000000000000001120403456000000000000000000000000000000000011204034560000000000000000000000000000000000112040345600000000000000000000000000000000001120403456000000000000000000000000000000000011204034560000000000000000000000000000000000))
 (.node 1 (.leaf 11204034560000000000000000000000000000000000112040345600000000000000000000108798410900001119354880000000000000000000001064879423000011135877120000000000000000000000000000000000112040345600000000000000000000000000000000001120403456000000000000000000000000000000000011204034560000000000000000000000000000000000111568486400000000000000000000108756372800001120403456000000000000000000000000000000000011204034560000000000000000000000000000000000112040345600000000000000000000000000000000001120403456000000000000000000001084292350000011204034560000000000000000000000000000000000112040345600000000000000000000000000000000001120403456000000000000000000000000000000000011204034560000000000000000000000000000000000)
 (.leaf 11204034560000000000000000000000000000000000112040345600000000000000000000000000000000001120403456000000000000000000000000000000000011200102400000000000000000000010575610530000112040345600000000000000000000000000000000001120403456000000000000000000000000000000000011204034560000000000000000000000000000000000112040345600000000000000000000000000000000001120403456000000000000000000000000000000000011204034560000000000000000000000000000000000112040345600000000000000000000000000000000001120403456000000000000000000000000000000000011204034560000000000000000000000000000000000112040345600000000000000000000106240746300001120403456000000000000000000000000000000000011204034560000000000000000000000000000000000))))))
 (.node 16 (.node 8 (.node 4 (.node 2 (.node 1 (.leaf 11204034560000000000000000000000000000000000112040345600000000000000000000000000000000001120403456000000000000000000001044102753000011204034560000000000000000000010498484160000112040345600000000000000000000000000000000001120403456000000000000000000000000000000000011204034560000000000000000000000000000000000112040345600000000000000000000000000000000001120403456000000000000000000000000000000000011204034560000000000000000000000000000000000112040345600000000000000000000000000000000001120403456000000000000000000000000000000000011204034560000000000000000000000000000000000112040345600000000000000000000000000000000001120403456107344298000000000001049970545000011196170240000000000000000000010809936540000)
 (.leaf 11204034560000000000000000000000000000000000112040345600000000000000000000000000000000001120403456000000000000000000000000000000000011204034560000000000000000000010683804250000112040345600000000000000000000106378067500001120403456000000000000000000000000000000000011204034560000000000000000000000000000000000112040345600000000000000000000000000000000001120403456000000000000000000001059863248000011204034560000000000000000000010420661790000111280128000000000000000000000106657287900001120403456000000000000000000000000000000000011204034560000000000000000000010302269160000112040345600000000000000000000105794082300001120403456000000000000000000000000000000000011204034560000000000000000000000000000000000))
 (.node 1 (.leaf 11204034560000000000000000000000000000000000112040345600000000000000000000000000000000001120403456103532562300000000000000000000000011204034561049884220000000000010554428140000112040345610658466760000000000107503511400001120403456000000000011077972390000000000000011204034560000000000000000000000000000000000112040345610689386330000000000107517801000001120403456000000000000000000001072968341000011204034560000000000000000000010678892870000112040345600000000000000000000106917161100001120403456000000000000000000001060016923000011193548801082221950000000000010406838810000112040345610944970301074404105106599897500001120403456000000000011079996671050567254000011204034560000000000000000000010785416910000)
 (.leaf 11171266560000000000000000000010813470440000112040345600000000000000000000000000000000001120403456000000000000000000001075013249000011204034561067684167000000000010683642660000112040345600000000000000000000107634426900001120403456000000000010509952751071515817738611156848640000000000000000000010736139040000112040345600000000000000000000000000000000001120403456000000000000000000001079751219000011204034560000000000000000000010823149360000112040345600000000000000000000000000000000001120403456000000000000000000000000000000000011204034560000000000000000000010558109470000110991769600000000001046280877107866284200001120403456000000000000000000001045435023000011204034560000000000000000000010977978600000)))
 (.node 2 (.node 1 (.leaf 11200102400000000000000000000010825422380000112040345600000000000000000000107568982673871120403456000000000000000000001037209257000011120148480000000000000000000010845402590000111634022400000000000000000000108378492800001120403456000000000000000000001050632595000011204034560000000000000000000010647899830000112040345600000000000000000000106885579300001120403456105449812210821449021091614862000010968104960000000000108746076300000000007388112040345610685441001115264778109530357800001113587712000000000011077997821089041693738911204034560000000000000000000010772645837390112040345600000000000000000000000000000000001120403456000000000000000000000000000000000011204034560000000000000000000000000000000000)
 (.leaf 11156848640000000000000000000010667677500000112040345610914448241035113962102822056900001120403456000000000000000000001096911715000011167334401083118778111456783610900783150000111751987200000000000000000000107461260273911118568448000000000000000000001077504899000011175198720000000000000000000010818888330000112040345600000000000000000000107277359800001120403456000000000000000000001067994312000011204034560000000000000000000000000000000000112040345600000000000000000000000000000000001120403456000000000000000000000000000000000011204034560000000000000000000000000000000000112040345600000000000000000000000000000000001120403456000000000000000000000000000000000011141120000000000000103330202310513035990000))
 (.node 1 (.leaf 11204034560000000000000000000010865854420000112040345600000000000000000000105929231000001120403456000000000000000000000000000000000011204034560000000000000000000000000000000000112040345600000000000000000000000000000000001120403456000000000000000000001065253046000011204034560000000000101488735010570920900000112040345600000000000000000000108170640800001117126656000000000011119382231078059697000011204034560000000000111692057110694704060000112040345610286164821116663657107890288100001114112000000000000000000000001061059403000011204034560000000000000000000010908725307392112040345600000000000000000000000000000000001120403456000000000000000000000000000000000011204034560000000000000000000000000000000000)
 (.leaf 11204034560000000000000000000000000000000000112040345600000000000000000000000000000000001120403456000000000010309129471057400573000011204034560000000000000000000010566201990000112040345600000000000000000000000000000000001120403456000000000000000000000000000000000011204034560000000000000000000000000000000000112040345610834679581038080174106010688700001120403456000000000010856247071043984086000011204034560000000000000000000010831423780000112040345610670912101098850920109104860600001118961664102259198510757605431099502797000011181752320000000000110737568610882734630000112040345600000000000000000000109861956700001120403456109279147800000000001088383801000011204034560000000000000000000000000000000000))))
 (.node 4 (.node 2 (.node 1 (.leaf 11091312640000000000000000000010708163130000111280128000000000001066031854105632971400001117126656000000000010564646471093904758000011204034560000000000000000000010777834507393112040345600000000000000000000104244135100001120403456106327549200000000000000000000000011204034560000000000109471502210994534940000112040345600000000001084321327107628651300001120403456000000000010658380780000000000000011204034560000000000111592945700000000000000112040345600000000000000000000105498955700001120010240000000000000000000001078775174000011204034560000000000000000000000000000000000112040345600000000000000000000000000000000001120403456000000000000000000001064842113739411204034560000000000000000000010762702287395)
 (.leaf 11204034560000000000000000000010744385980000112040345600000000000000000000105398115400001120403456108152873800000000001049967308000011204034560000000000000000000010797807877396112040345600000000000000000000000000000000001120403456000000000000000000000000000000000011204034560000000000000000000010674228190000112040345600000000001091671844000000000000001120403456000000000010334362400000000000000011204034560000000000107811690300000000000000112040345600000000001054629220000000000000001120403456000000000000000000001062473237000011204034560000000000000000000010672662020000111817523200000000000000000000108785448500001118175232000000000000000000001071862079000011204034560000000000000000000000000000000000))
 (.node 1 (.leaf 11204034560000000000000000000000000000000000112040345600000000000000000000107641921700001116340224000000000010536695631065678493000011204034560000000000000000000010520461250000112040345600000000000000000000108627846373971120403456000000000010416637871065518844000011204034561051206231000000000000000000000000112040345611140721401076939561109938612373981120403456000000000010330067441039751689000011204034560000000000108854834610639100800000112040345600000000001113718732104673904500001120403456000000000011111106351055856476000011204034560000000000000000000010913869067399112040345600000000000000000000108460934200001120403456000000000000000000001071856273000011167334400000000000000000000010738983120000)
 (.leaf 11200102400000000000000000000010963642700000112040345600000000000000000000000000000000001120403456000000000000000000001074217004000011204034560000000000000000000010569423830000112040345600000000000000000000104142030600001120403456000000000000000000000000000000000011204034560000000000000000000000000000000000112040345600000000000000000000105590875200001120403456000000000000000000000000000000000011204034560000000000110858091910321871590000112040345610468054001106650962000000000000001119354880000000000000000000001077806263000011204034560000000000000000000010848188470000112040345600000000000000000000108909081400001120403456106955136200000000001078226532000011204034560000000000000000000000000000000000)))
 (.node 2 (.node 1 (.leaf 11204034560000000000000000000000000000000000112040345610650426030000000000107566645674001120403456000000000000000000001065888130000011204034560000000000000000000010640724300000112040345600000000000000000000106548428300001120403456000000000000000000000000000000000011204034560000000000000000000010521278730000112040345600000000001050471825105840256700001120010240000000000000000000001074663038000011204034560000000000000000000000000000000000112040345600000000000000000000000000000000001120403456000000000000000000000000000000000011204034560000000000103347650610634841950000112040345600000000000000000000000000000000001120403456000000000010656132630000000000000011204034560000000000109213657310285115780000)
 (.leaf 11204034561095587689111225599410578164730000112040345600000000001072737708000000000000001120403456000000000010491564921077885226000011204034561016744387110954644810637787800000112040345610689410821116776799106721036300001120403456105724676711008625081055710396000011204034561061070664110762653110740387640000112040345600000000000000000000106232678374011120403456000000000000000000001071957384000011204034560000000000000000000010868662637402112040345600000000000000000000105168885600001120403456000000000000000000000000000000000011204034560000000000000000000010820032567403112040345600000000000000000000108261808074041120403456000000000000000000001048481412000011204034560000000000107868648910572729320000))
 (.node 1 (.leaf 11204034561074264095000000000010624746630000112040345610486483430000000000106214223400001120403456000000000000000000001045439445000011204034560000000000000000000010529987150000112040345600000000000000000000108382715200001120403456000000000000000000001023626086000011204034560000000000000000000010691227020000112040345611096970181085172351108171605300001120403456000000000010573303511060155448000011204034561086691259107686448310689706000000111712665600000000001107791053107809883874051120403456103756960910995082201067501024000011204034560000000000110701051910721546450000112040345600000000000000000000107143543774061120403456000000000000000000001070452986740711204034560000000000000000000010842292350000)
 (.leaf 11179130880000000000000000000010883279740000112040345600000000000000000000104975438400001120403456000000000000000000001074631278000011099176960000000000105850307910708423520000111791308800000000001049005497107157146600001120403456110871544210499953521070029288000011204034560000000000000000000000000000000000112040345610730446800000000000000000000000001120403456000000000010494115051049997104000011204034560000000000000000000000000000000000112040345600000000000000000000000000000000001120403456106564068500000000001032216937000011204034561079913331107716647310801903520000112040345600000000001103335260105721168700001120403456000000000000000000000000000000000011204034560000000000000000000010645767060000)))))
 (.node 8 (.node 4 (.node 2 (.node 1 (.leaf 11204034560000000000000000000000000000000000112040345600000000000000000000106608967374081120403456000000000011075589771059447062000011204034560000000000110766302210534024870000112040345610958545591099379245106569617300001120403456000000000000000000000000000000000011204034560000000000000000000000000000000000112040345600000000000000000000000000000000001120403456000000000010443011650000000000000011204034560000000000000000000000000000000000112040345610591499911049092738106894463000001120403456106644698100000000001074094469000011204034560000000000106599158900000000000000112040345610748426361025678456000000000000001120403456108469122210407175521083087283000011189616640000000000110276389110861493640000)
 (.leaf 11204034560000000000000000000000000000000000112040345600000000000000000000105196462000001120403456000000000000000000001091043419740911204034560000000000000000000010936650897410112040345610690244900000000000109114938200001120403456000000000000000000001082199229000011204034560000000000000000000010821230357411112040345600000000000000000000108039039900001120403456000000000000000000001082537181000011196170240000000000000000000010661784700000112040345600000000000000000000107971117600001120403456105630029710852124071056000119000011204034560000000000110186384610480056010000112040345600000000000000000000104226308100001120403456000000000000000000001042921071000011204034560000000000000000000010753354730000))
 (.node 1 (.leaf 11204034560000000000000000000010775355220000112040345600000000000000000000106076758600001120403456000000000010935994420000000000000011204034560000000000000000000000000000000000112040345609063771491086553535000000000000001120403456000000000011068380281071609772741211204034560000000000000000000010993815090000112040345600000000000000000000107869714300001120403456000000000000000000001048630292741311083448320000000000000000000010645591410000112040345610749678480000000000106739414374141120403456000000000000000000001081038235741511204034561057750168107296252210575979160000112040345611181981341064630118107488086400001120403456000000000000000000001061711170000011204034560000000000000000000000000000000000)
 (.leaf 11204034560000000000105735216200000000000000112040345600000000000000000000000000000000001120403456000000000010857658450000000000000011204034561049614845108995910000000000000000112040345610839309461034161016107521541200001120403456106619534811067485321040466733000011204034560000000000000000000000000000000000112040345610448699801025061054000000000000001120403456000000000010500825941090921333741611204034561058291182107469267310921320427417112040345600000000000000000000000000000000001120403456000000000000000000001020555968000011204034560000000000000000000010539596567418112040345600000000000000000000000000000000001120403456107054487500000000000000000000000011204034561084132134111350411410631633810000)))
 (.node 2 (.node 1 (.leaf 11204034561111983598110417522210727292590000112040345611162112871078194497106120088174191120403456000000000000000000000000000000000011204034560000000000104092559010745429820000112040345600000000001091228087000000000000001120403456000000000010384157180000000000000011204034561076829490110057131900000000000000112040345600000000001050183257000000000000001120403456000000000011169004001071286397000011204034560000000000000000000010826526600000112040345600000000000000000000109115799774201086324736000000000000000000001048189402000011204034560000000000108331238710803668037421112040345610625523100000000000000000000000001120403456000000000010977829451078073898000011204034561107550622108688635310666428850000)
 (.leaf 11204034561084006414107908704500000000000000112040345600000000001067870637000000000000001120403456100897640200000000001038382967000011204034561046975386110262752410867876730000112040345600000000000000000000106701204700001120403456106331324110883119970000000000000011204034561085211111110165801000000000000000112040345610424515781093412585000000000000001120403456000000000011080609301058920207000011204034561073390417110281590010877549450000112040345610655547360000000000106731317700001120403456000000000010980383781078989537742211204034561061200469000000000010673064497423112040345600000000000000000000107155113400001120403456000000000000000000001078293090742411204034561054402996000000000010502118810000))
 (.node 1 (.leaf 11204034560000000000109273667300000000000000112040345600000000000000000000000000000000001120403456108397666800000000001068583023000011204034561061721184000000000000000000000000112040345600000000001086333544104896550300001120403456000000000010868144211066985462000011204034560000000000110766189410269117470000112040345600000000001114935788108044006800001120403456000000000010883470201099126130742511204034560000000000000000000010642687270000112040345600000000000000000000101062444900001120403456000000000000000000001091375474000011204034561066867779105330717510538561290000112040345610251107151082935529000000000000001120403456108235318300000000000000000000000011204034561063985453108817295600000000000000)
 (.leaf 11204034561096892980109333939510656881420000112040345610747617911096419272000000000000001120403456105707570700000000001029909977000011204034560000000000000000000000000000000000112040345610212637660000000000108155740000001120403456106060710900000000001052851628000011204034560000000000105592777610862830967426112040345600000000000000000000109400074974271120403456000000000011122954471097930390742811204034560000000000000000000010769335310000112040345600000000000000000000109102084674291120403456000000000000000000001093382841743011204034560000000000000000000010921611017431112040345600000000000000000000105882122400001120403456106781699200000000001052560293000011204034561073776742110569308810268903460000))))
 (.node 4 (.node 2 (.node 1 (.leaf 11204034560000000000000000000000000000000000112040345600000000000000000000000000000000001120403456107283029300000000001050404685000011204034560000000000109785917700000000000000112040345600000000001103785152105241367600001120403456000000000000000000001075326385000011204034561045770380000000000010673818430000112040345600000000001116456944107682620174321120403456000000000010693436771086599498743311204034561033451810110226225210974585417434112040345600000000000000000000108352845074351120403456000000000000000000001072495738000011204034561064736754108478647510461827490000112040345610423140050000000000105903273500001120403456110597331710745496471080298202000011204034561040830899110400105310796411880000)
 (.leaf 11204034560000000000107337356400000000000000112040345600000000000000000000104921541300001120403456107031223400000000000000000000000011204034561106533745108850933910617071650000112040345600000000001096568170108180799100001120403456107267590000000000001043385370000011204034560000000000000000000010961227877436112040345600000000000000000000109504220674371120403456000000000000000000001092434625743811204034560000000000000000000010938436610000112040345600000000000000000000106134634000001120403456000000000000000000001079771750000011204034560000000000000000000010660871967439112040345600000000000000000000107453511100001120403456103556010200000000000000000000000011204034561067463245000000000010584034410000))
 (.node 1 (.leaf 11204034560000000000108790850500000000000000112040345600000000001076186264000000000000001120403456000000000000000000000000000000000011204034560000000000000000000000000000000000111896166409775748221107649888107817033500001120403456000000000000000000001071205719744011204034561025226679110303861810439357597441112040345600000000001116954073104223543074421120403456000000000000000000001085919278744311204034560000000000000000000010969261737444112040345610626048731049055828106164891800001120403456105809235600000000001075301479744511204034560000000000000000000000000000000000112040345600000000000000000000000000000000001120403456000000000010820905860000000000000011204034560000000000111410979810618983480000)
 (.leaf 11204034560000000000000000000010706286767446112040345610793998730000000000107170457800001120403456111117975210555687441081870290000011204034560000000000000000000010248435000000112040345600000000001087048044000000000000001120403456110959740210601422131074936706000011204034560000000000110132325300000000000000112040345600000000000000000000000000000000001120403456000000000000000000001040324787000011204034560000000000000000000010414972730000112040345600000000000000000000000000000000001120403456000000000000000000000000000000000011204034560000000000000000000010592639010000110834483200000000000000000000106967959500001120403456000000000010787649221048068918744711204034561069363197000000000010075278670000)))
 (.node 2 (.node 1 (.leaf 11204034560000000000111334570110686654370000112040345600000000000000000000109101756074481120403456106553568510865283691092291398744911204034561033348328000000000010844481320000112040345600000000000000000000000000000000001120403456109752152510993177461029919689000011204034560000000000000000000000000000000000112040345600000000000000000000000000000000001120403456102440124010658296890000000000000011204034560000000000000000000010610965720000112040345610659247231074554261106560917700001120403456106774802110773736720000000000000011204034560000000000000000000010941801217450111961702400000000000000000000107971577800001120403456000000000000000000001088002092745111204034560000000000000000000010366213427452)
 (.leaf 11204034560000000000110634871010715820250000112040345600000000000000000000108724821174531120403456000000000000000000001037654619000011204034560000000000110184733100000000000000112040345600000000001100685246000000000000001120403456000000000000000000000000000000000011204034560000000000000000000000000000000000112040345600000000000000000000000000000000001120403456000000000000000000000000000000000011075584000000000000104242882810646138050000110755840000000000001050710062106691639900001107558400106855092010429388551031615181000011204034561070230034000000000010631659760000112040345610746899881113450637105057505900001120403456102989665011163726121081110023000011204034560000000000000000000010799538757454))
 (.node 1 (.leaf 11204034561048430307109762859510909994557455112040345600000000000000000000109549151874561077936128000000000000000000000000000000000011204034560000000000000000000010572789060000112040345600000000001091910395103048552800001120403456000000000000000000000000000000000011204034560000000000109685443100000000000000112040345610526346101104764522104841811700001120403456108513190111007457491057314156000011204034560000000000000000000000000000000000112040345600000000000000000000000000000000001120403456105870611700000000000000000000000011204034560000000000105469632800000000000000111358771200000000001050263788103775795900001120403456107414991311168917881037229053000011204034560000000000111338984610591914950000)
 (.leaf 11204034560000000000111708612910359339090000112040345600000000001052213300106655853674571120403456101520678811070501551089713588745811204034561100319457111432981510795384700000112040345600000000000000000000108961626900001120403456000000000000000000000000000000000011204034560000000000000000000000000000000000112040345600000000000000000000102003070600001120403456000000000000000000000000000000000011204034561041523664110444565010370474490000112040345600000000000000000000000000000000001120403456000000000010807404400000000000000011204034560000000000000000000000000000000000112040345600000000000000000000106669372700001120403456000000000000000000001076238107000011204034561090302748107101301010822431970000))))))))
 (.node 64 (.node 32 (.node 16 (.node 8 (.node 4 (.node 2 (.node 1 (.leaf 11204034561076121949104199933110412257177459112040345600000000000000000000000000000000001120403456000000000000000000001055117105000011204034560000000000103734197610605427360000112040345600000000001052797148000000000000001120403456000000000000000000000000000000000011204034560000000000104414010410710479847460112040345610742843661049344396108286569800001120403456000000000000000000001062635411000011204034561067007449000000000010535822340000112040345610694152320000000000101727228300001105199104000000000010959762491064035358000011204034560979275629000000000010429925437461112040345600000000001116290377105775339174621120403456000000000000000000001092725602000011204034560000000000000000000010270044580000)
 (.leaf 11204034560000000000000000000010574597790000112040345610704711641106811604106521579800001120403456106123221200000000001059648789000011204034560000000000000000000010429303920000112040345600000000000000000000000000000000001120403456000000000000000000000000000000746311204034560000000000000000000000000000000000112040345600000000001116509123108623664700001099431936000000000010338791591021705433746411204034561055359700102511474110854179300000112040345600000000000000000000000000000074651120403456000000000010868100170000000000000011204034560000000000000000000010588410120000112040345600000000001072433201104274717300001120403456000000000011063787001082206389000011204034560000000000000000000000000000000000))
 (.node 1 (.leaf 11204034560000000000104567018610330072250000112040345600000000000000000000000000000000001120403456106309116100000000001077553687000011204034560000000000000000000010557770450000112040345610795760881107364964000000000000001120403456000000000011078376621080681619746611204034561101318276109186121710885873107467112040345600000000000000000000000000000074681120403456000000000010989671551065878500000011204034560000000000000000000000000000000000112040345610167492191085446658102581165800001120403456000000000010530722941066432804000011204034561060215814107178560110567483360000112040345600000000001025034211104216833500001120403456000000000010250610541046344146000011204034560000000000110642247810607330317469)
 (.leaf 11204034560000000000109978860910877086637470112040345610493092991085012338108311575874711120403456105929087010334228191089452163000011204034561044269691000000000010492754960000112040345600000000000000000000000000000000001120403456000000000000000000001074501471000011204034560000000000000000000000000000000000112040345600000000000000000000000000000074721120403456000000000000000000001060398134000011204034561069533998105717935610169570860000112040345600000000001104398411108963218974731120403456000000000011091329161086522958747411204034560000000000110418057010980576097475112040345600000000001100812229108573299574761120403456000000000011165419441083560406000011204034560000000000111704802610574058930000)))
 (.node 2 (.node 1 (.leaf 11204034560000000000000000000010937628940000111817523200000000000000000000103320279900001120403456000000000000000000001052519570000011204034560000000000000000000010572393780000112040345600000000000000000000103094811300001120403456000000000000000000001046862872000011204034561060314129000000000010404394890000112040345610705011620000000000000000000000001120403456000000000000000000000000000000000011204034561100591321108151135310599455147477112040345600000000001067244008000000000000001120403456106806083200000000001051361282747811204034561075814678000000000010564378370000112040345610667657321107955732000000000000001120403456000000000011070924131090358607000011204034561053123498110131680410883067717479)
 (.leaf 11204034561075033569110206711210935043437480112040345611016873571095367446109287647174811120403456000000000000000000001063275085000011204034560000000000000000000010748141360000112040345610609952170000000000000000000000001120403456109147779511011963221037089451000011204034561067284978000000000010685009517482112040345610264802721116506646108625126500001120403456000000000010616756501093994369000011204034560000000000109931150710675776757483112040345600000000000000000000000000000000001120403456000000000000000000000000000000000011204034560000000000000000000010770154650000112040345600000000000000000000000000000000001120403456107511293400000000000000000000000011204034560000000000103348992710732888000000))
 (.node 1 (.leaf 11204034560000000000107072444210441245310000112040345610508188450000000000000000000000001120403456107079687711077150311058053086000011204034560000000000110940641000000000007484112040345600000000001105903852107515534374851120403456105895985510587983581094965356000011204034561066621615106603772610780634760000111896166410588014280000000000105343495000001120403456000000000000000000001076532456000011204034560000000000000000000010176181550000112040345610983740440000000000000000000000001120403456000000000000000000000000000000000011204034560000000000000000000010612603990000112040345600000000000000000000103261604500001120403456000000000000000000001063927397000011204034560000000000000000000010764291827486)
 (.leaf 11204034560000000000106214541210297963210000112040345600000000000000000000104409644600001120403456105803457500000000000000000000000011204034560000000000110800509310596812140000112040345600000000001107473203108657350800001120403456000000000011080283721056972200000011204034560000000000110763075210841781010000112040345600000000001115781294109326008274871120403456000000000000000000001065180458748811204034560000000000000000000000000000000000112040345600000000000000000000000000000000001120403456000000000000000000000000000000000011204034560000000000000000000010571701297489112040345600000000000000000000107522825074901120403456000000000000000000001053787306749111204034561069198034000000000000000000000000))))
 (.node 4 (.node 2 (.node 1 (.leaf 11204034560000000000000000000010678224130000112040345600000000000000000000000000000000001120403456000000000000000000001080313411749211204034560000000000107452280300000000000000112040345610494844530000000000000000000000001120403456000000000000000000000000000000000011148984321094346579111090335710767951370000112040345600000000000000000000000000000074931120403456000000000011079112461066270630000011204034560000000000109220252910917234837494112040345600000000001117029348106102128200001120403456103025420610878061641091630820000011204034560000000000103280541710855435900000112040345600000000000000000000000000000000001120403456000000000000000000001076242067000011204034560000000000000000000010635104530000)
 (.leaf 11204034560000000000000000000000000000000000112040345600000000000000000000105413392400001120403456000000000000000000001043947783000011204034560000000000000000000000000000007495112040345600000000000000000000105246707300001120403456000000000000000000001027014039000011204034560000000000000000000010708146180000112040345600000000000000000000000000000000001120403456000000000000000000000000000000000011204034560000000000110652869810938076080000111673344000000000001114112498105541410800001118568448000000000000000000001065895514749611204034560000000000000000000000000000000000112040345600000000000000000000000000000000001120403456000000000000000000001042499610000011204034560000000000000000000000000000000000))
 (.node 1 (.leaf 11204034560000000000000000000000000000000000112040345600000000000000000000104755361774971120403456000000000000000000000000000000749811204034560000000000000000000000000000000000112040345600000000001041932222000000000000001120403456109946118000000000000000000000000011204034560000000000109916213710678108807499112040345600000000000000000000107628613575001118568448106501503800000000001013511725750111204034560000000000000000000000000000000000112040345600000000000000000000103664618300001120403456000000000000000000001060651675000011204034560000000000000000000010656585360000112040345600000000001065757547000000000000001120403456000000000000000000000000000000000011204034560000000000105267635200000000000000)
 (.leaf 11204034561070568967110228432500000000000000112040345610729310900000000000105811697100001120403456105836446511079004191066748529000011204034560000000000110799916910552045050000112040345600000000001104858160109874329775021120403456000000000011054652851086923100750311204034560000000000111094996710842397927504112040345600000000001021450597107870094275051120403456000000000000000000001088234110000011204034561069747739000000000010828242190000112040345600000000000000000000000000000000001120403456000000000000000000001027237832000011204034560000000000000000000000000000000000112040345600000000000000000000000000000000001120403456000000000000000000000000000000000011204034560000000000000000000000000000000000)))
 (.node 2 (.node 1 (.leaf 11204034560000000000000000000010661642490000112040345600000000000000000000000000000000001120403456000000000000000000000000000000000011204034560000000000110681108010423284217506112040345600000000001102146385108956930075071120403456105232007111170790240000000000000011204034561047851291111705676810466490240000112040345610614758341116957088106119759800001114898432000000000000000000001067519069000011112284160000000000000000000010638724520000112040345600000000000000000000103374260700001120403456000000000000000000000000000000000011204034560000000000000000000010424537617508112040345600000000000000000000107455701600001120403456000000000000000000001065154153000011204034560000000000104906925000000000000000)
 (.leaf 11204034560000000000000000000000000000000000112040345600000000000000000000000000000000001120403456105692924211169959771055590173750911204034561058103664110717179010719400317510112040345610490361990000000000107785464475111120403456106644794600000000001077404722751211204034560000000000000000000010389131250000112040345600000000000000000000000000000000001120403456000000000000000000000000000000000011204034560000000000000000000010614660210000112040345600000000000000000000104219615300001120403456000000000000000000000000000000000011204034560000000000000000000000000000000000112040345600000000000000000000106138514100001120403456110147161810202157941055189752000011204034560000000000000000000000000000000000))
 (.node 1 (.leaf 11204034561030246153110801948510357050227513112040345610739583131116860029105692249000001120403456107103900611078687781054104657000011204034560000000000000000000010193900060000112040345600000000000000000000103222133800001120403456000000000000000000000000000000000011204034560000000000000000000010597498990000112040345600000000000000000000000000000075141120403456000000000000000000001055939993000011204034561067088500102753066000000000007515112040345610418145810000000000000000000075161120403456106744707100000000000000000000000011204034561075262414000000000010094313000000112040345610950145621092977741106386317300001117126656105812633000000000001033294371000011204034560000000000108329120610403554407517)
 (.leaf 11204034560000000000108619408310394601400000112040345600000000001074904485105144972375181120403456105315379800000000001033694097000011204034560000000000000000000010257652240000112040345600000000000000000000104522373700001120403456107091052610423482971049822155000011204034560000000000000000000010472451090000112040345600000000000000000000000000000000001120403456000000000000000000001062455798000011204034561060814744103852309210286066597519112040345600000000000000000000000000000000001120403456000000000000000000000000000000000011204034561100666581105340448310345920100000112040345600000000001088643138103950304600001120403456000000000000000000000000000000000011204034560000000000000000000010244400110000)))))
 (.node 8 (.node 4 (.node 2 (.node 1 (.leaf 11204034561109614399110150670110378650380000112040345600000000001079172189000000000000001120403456000000000011070383061075359886752011204034560000000000000000000000000000000000112040345600000000000000000000000000000075211120403456000000000000000000001032248586000011204034560000000000000000000000000000000000112040345600000000000000000000000000000000001120403456000000000010849173371042016837752211204034560000000000110400414710592758167523112040345600000000000000000000107464331875241120403456104498775600000000001079880326752511204034560000000000000000000010357980127526112040345600000000000000000000000000000000001120403456000000000000000000001024455674752711204034560000000000000000000000000000000000)
 (.leaf 11204034560000000000104256304610661993550000112040345600000000000000000000000000000000001120403456000000000010334899270000000000000011204034561068087214106568288800000000000000112040345600000000000000000000102685975800001120403456000000000000000000001023650292000011204034560000000000110792010610416682227528112040345600000000001085860007000000000075291120403456101619248310820742280989147617000011204034560000000000000000000010200384750000112040345600000000000000000000104920357200001120403456000000000000000000000000000000753011204034560000000000000000000000000000000000112040345600000000001086733051107350695700001120403456000000000000000000001071038388753111204034560000000000000000000000000000000000))
 (.node 1 (.leaf 11204034560000000000000000000000000000000000112040345600000000000000000000000000000000001120403456000000000011122766511066956912753211204034561069317253000000000010564986990000112040345600000000000000000000104122015300001120403456000000000000000000000000000000753311204034560000000000000000000000000000000000112040345610666927590000000000104513304275341120403456000000000000000000001056908471753511204034560000000000000000000000000000007536112040345600000000000000000000000000000000001120403456110005418400000000001027447609000011204034560000000000000000000010507060550000112040345611028976780000000000000000000000001120403456000000000000000000000000000000000011204034561068652665000000000000000000000000)
 (.leaf 11204034560000000000102602742210390758270000112040345600000000001073006982000000000075371120403456000000000000000000001087124397753811204034561064217633000000000010913840657539112040345600000000000000000000000000000000001120403456000000000000000000001074781205000011204034560000000000000000000010737048627540112040345600000000000000000000000000000075411120403456000000000000000000000000000000754211204034560000000000000000000000000000000000112040345600000000001090674858000000000000001120403456000000000010764228231034607651754311204034560000000000110787423110492040837544112040345600000000000000000000103457073175451120403456000000000000000000001076055203000011204034560000000000000000000010483143040000)))
 (.node 2 (.node 1 (.leaf 11204034560000000000000000000000000000007546112040345600000000000000000000000000000075471120403456000000000000000000001047187472000011204034560000000000000000000010268433607548112016061911097278921070692565109063626600001120403456000000000000000000000000000000000011204034560000000000000000000010687439647549112040345600000000000000000000104037108600001120403456108439815210593134181070730857755011204034561066548450105748973509820091947551112040345600000000000000000000000000000000001120403456000000000010923685180000000000000011204034560000000000109802705410280986950000112040345600000000001092722937104942885775521120403456107211000500000000001059048665000011141120001049676250000000000010743378570000)
 (.leaf 11204034560000000000000000000010383491490000112040345610766150520000000000102795839700001116767755111657086010485827110000000000000011204034560000000000000000000000000000000000112040345600000000000000000000000000000000001120403456110001611910416704981063925126000011204034561057564410102962445710526106900000112040345600000000000000000000000000000075531120403456106100368900000000001047837682000011204034560000000000000000000000000000000000112040345600000000001082058709103534521900001120403456105636257400000000000000000000000011204034560000000000000000000000000000000000112040345600000000000000000000000000000000001120403456000000000000000000000000000000755411204034560000000000000000000010339234300000))
 (.node 1 (.leaf 11204034561105518751110343712910584993390000112040345600000000000000000000000000000000001120403456000000000000000000000000000000000011204034560000000000110798325710580957267555112040345600000000001083050872105802268175561120403456000000000010996352021082386242755711036262400000000000109152137410635744350000112040345609794130680000000000104033351700001120403456000000000000000000001028251983000011186321090000000000000000000010713280440000112040345610385804030000000000000000000000001120403456000000000000000000001058882659000011204034560000000000109011408010614816430000112040345600000000001085230442102139666400001120403456107103013911046893391050730224755811204034561066986210000000000000000000000000)
 (.leaf 11204034560000000000000000000010709901820000112040345600000000000000000000000000000000001120403456000000000000000000000000000000000011204034560000000000108573753300000000007559112040345600000000001099973054105768002575601120403456000000000000000000000000000000756111204034560000000000000000000010637563120000112040345610888508811081485767000000000075621120403456000000000010710608250000000000756311204034561057113070000000000000000000000000112040345600000000001091050353104020315200001120403456000000000000000000000000000000000011160780801050747106000000000000000000000000112040345600000000001016887194000000000075641120403456000000000010590265280000000000756511204034560000000000000000000000000000000000))))
 (.node 4 (.node 2 (.node 1 (.leaf 10968104961064609348106091060910759533930000112040345600000000001084256734000000000000001120403456000000000010789943511048476954756611204034560000000000000000000010298135320000112040345610518471211075099940106918427400001120403456105091756200000000001026503772756711204034561066551269105824974310220879350000112040345610605167810000000000102718825900001120403456000000000000000000000000000000000011204034560000000000000000000010092198060000109681049600000000000000000000105677984700001120403456000000000000000000001019081742756811141120000000000000000000000010531921200000112040345600000000000000000000102763955175691120403456000000000000000000000000000000000011204034560000000000101683350700000000000000)
 (.leaf 11204034560000000000000000000000000000000000112040345600000000000000000000000000000000001120403456000000000000000000000000000000000011204034561047584668107678856600000000000000112040345610667017521076561655000000000075701120403456105167632911077763471053844944000011204034561086019277110661536310499891337571112040345610572252080000000000101947139200001120403456107211489500000000000000000000000011204034560000000000099349304400000000000000112040345600000000001082420049103832919275721120403456106579913800000000000000000000757311196170241056272481000000000010425674980000112040345600000000000000000000000000000075741120403456000000000000000000001028321590000011204034560000000000000000000000000000000000))
 (.node 1 (.leaf 11204034560000000000000000000000000000000000111817523200000000000000000000106944599475751120403456000000000000000000000000000000000011204034560000000000109054997300000000007576112040345600000000000000000000000000000075771120403456000000000000000000000000000000000011204034560000000000000000000000000000007578112040345600000000000000000000000000000000001120403456000000000000000000000000000000000011204034560000000000000000000010327522900000112040345610819890421103924665104333556075791120403456000000000000000000001037310497758011204034560000000000000000000000000000000000112040345600000000000000000000000000000000001120403456106072275500000000000000000000000011204034560000000000000000000010461545010000)
 (.leaf 11204034560000000000000000000000000000000000112040345600000000000000000000000000000000001120403456000000000010609273860000000000758111204034560000000000000000000010224960200000112040345600000000000000000000102528410100001120403456000000000000000000000000000000758211099176960000000000000000000010602152150000112040345600000000000000000000106507127300001120403456000000000010429656990000000000000011204034560000000000000000000010649348410000112040345600000000000000000000000000000000001120403456000000000000000000000000000000000011204034560000000000000000000000000000000000112040345600000000000000000000000000000000001120403456000000000000000000000000000000000011204034560000000000000000000000000000007583)))
 (.node 2 (.node 1 (.leaf 11204034561021515022109439185110818216657584110755840000000000000000000000000000000000001120403456000000000000000000000000000000000011204034560000000000000000000010513354150000112040345600000000000000000000000000000000001120403456000000000000000000000000000000000011204034560000000000000000000000000000000000112040345611076610810970045207000000000075851120403456000000000010920057111057000620000011204034560000000000109544724210295075780000112040345600000000000000000000000000000075861120403456105858116000000000000000000000000011204034560000000000000000000000000000000000112040345600000000000000000000102392210075871120403456000000000000000000001046697994000011204034560000000000000000000000000000007588)
 (.leaf 10905190400000000000000000000010562873550000112040345609264529001088931496103130646000001120403456106718474310607260600000000000758911204034560000000000000000000000000000007590112040345600000000000000000000106111192400001120403456000000000000000000000000000000759111204034560000000000000000000000000000007592112040345600000000000000000000000000000000001120403456000000000000000000000000000000000011204034560000000000000000000000000000000000112040345600000000000000000000000000000000001120403456000000000010595617210000000000000011204034560000000000108599548310407703747593112040345600000000001103538264000000000075941120403456000000000000000000000000000000759511204034560000000000000000000000000000007596))
 (.node 1 (.leaf 11204034560000000000105271326110599707660000112040345600000000000000000000000000000000001120403456000000000000000000000000000000000011204034560000000000000000000000000000007597112040345600000000001033275179000000000075981120403456000000000010250878980000000000759911204034561055862043000000000000000000000000112040345600000000000000000000103977706500001120403456000000000010796746671028982461000011204034560000000000000000000000000000007600111791308800000000000000000000107619873700001120403456000000000000000000000000000000000011204034561037213530000000000000000000000000112040345600000000000000000000000000000000001120403456000000000000000000000000000000000011204034560000000000102508789800000000000000)
 (.leaf 11204034560000000000000000000000000000000000112040345600000000000000000000104138010800001120403456000000000010640093610000000000000011204034560000000000000000000000000000000000112040345610547646450000000000000000000076011120403456105643706510991658070000000000760211204034560000000000000000000000000000007603112040345600000000000000000000107555567500001120403456106310716600000000001039417774000011204034561090702884000000000000000000000000112040345600000000000000000000000000000000001120403456000000000000000000001043165970760411204034560000000000000000000000000000007605112040345600000000000000000000000000000076061120403456000000000000000000001016669645000011204034560000000000000000000000000000000000))))))
 (.node 16 (.node 8 (.node 4 (.node 2 (.node 1 (.leaf 11204034561051703273000000000000000000000000112040345600000000001072090107000000000000001120403456000000000010641855221024115002760711204034560000000000000000000000000000000000112040345600000000001016833507000000000000001120403456000000000000000000001050902598000011204034560000000000000000000000000000000000112040345600000000000000000000000000000000001120403456000000000010631856000000000000760811204034560000000000108078573810227884267609112040345600000000001086267903104811716176101109131264000000000011003810021082492354000011204034560000000000000000000000000000000000112040345600000000000000000000000000000000001120403456000000000000000000000000000000761111204034561114156322000000000000000000000000)
 (.leaf 11204034560000000000000000000010470691880000112040345600000000000000000000000000000000001120403456000000000000000000000000000000761211204034561064317240000000000000000000007613112040345610591254301065146856105029292776141120403456106729732611122880280000000000000011204034560000000000110812001710583828360000112040345611008035841040462538104855033000001120403456000000000000000000000000000000000011204034561120403456000000000000000000000000112040345600000000000000000000000000000000001120403456000000000000000000000000000000000011204034560000000000000000000010250428070000112040345600000000000000000000000000000000001120403456000000000000000000000000000000000011204034560000000000000000000000000000007615))
 (.node 1 (.leaf 11204034560000000000000000000010653837497616112040345610660734201108098050103278280800001120403456105844113700000000000000000000761711204034560000000000000000000000000000000000112040345600000000000000000000000000000000001120403456000000000000000000001032525047000011204034560000000000107746343000000000007618112040345600000000000000000000000000000000001120403456000000000010920824671070376646761911171266560000000000000000000000000000000000112040345610906040991040355164000000000000001120403456000000000000000000000000000000000011204034560000000000000000000000000000000000112040345609961301540000000000000000000076201120403456000000000000000000000000000000762111204034560000000000000000000000000000000000)
 (.leaf 11204034560000000000110959463010532584600000112040345610332661860000000000000000000000001120403456000000000000000000000000000000762211204034560000000000000000000000000000000000112040345600000000000000000000000000000000001120403456000000000000000000000000000000000011204034560000000000000000000000000000000000112040345600000000000000000000000000000076231120403456000000000000000000001029361422000011204034560000000000106342215810171824367624112040345609988515530000000000104593121176251120403456000000000000000000001053954300762611204034561074687505111429801700000000000000111358771210455344921016887194000000000000001120403456000000000000000000000000000000762711204034560000000000000000000000000000000000)))
 (.node 2 (.node 1 (.leaf 11204034560000000000000000000000000000007628112040345600000000001097177288104621516600001120403456000000000010665578201031850524000011204034560000000000110867070300000000000000111896166411074976261039449194000000000000001120403456000000000000000000000000000000000011204034560000000000000000000000000000000000112040345600000000000000000000000000000000001120403456000000000000000000000000000000000011204034560000000000000000000000000000000000112040345600000000000000000000000000000000001120403456106488996400000000001019802587000011204034560000000000104069070800000000000000112040345600000000000000000000000000000000001120403456000000000000000000000000000000000011204034561088777529000000000010641340810000)
 (.leaf 11204034561101446854000000000000000000000000112040345600000000001104213285000000000076291120403456000000000010779457750000000000000011204034560000000000000000000000000000000000112040345600000000000000000000000000000000001120403456000000000000000000001077663452763011204034560000000000000000000000000000000000112040345600000000000000000000000000000000001120403456000000000000000000000000000000000011204034560000000000000000000000000000000000112040345600000000000000000000000000000000001120403456000000000011103872221049676764763111204034560000000000110527219000000000000000112040345610320881570000000000000000000000001120403456000000000000000000000000000000763211204034560000000000000000000000000000000000))
 (.node 1 (.leaf 11204034560000000000000000000000000000000000112040345600000000000000000000000000000000001120403456000000000000000000000000000000000011204034560000000000000000000000000000000000112040345600000000000000000000000000000000001120403456000000000000000000000000000000000011204034561084445457000000000000000000000000112040345600000000001044341431000000000000001120403456000000000000000000000000000000000011204034561055041939000000000010586047207633110519910400000000001093033525104639173600001120403456000000000000000000000000000000000011204034560000000000000000000000000000000000112040345600000000000000000000000000000000001120403456000000000000000000000000000000000011204034560000000000000000000000000000000000)
 (.leaf 11204034560000000000000000000000000000000000112040345611077461460000000000000000000000001120403456000000000000000000000000000000000011204034561070753642000000000010161302927634112040345610669165840000000000104116834376351118961664107743081900000000001054667702000011204034560000000000000000000000000000000000112040345600000000000000000000000000000000001120403456000000000000000000000000000000000011204034560000000000000000000000000000000000112040345600000000000000000000000000000000001120403456000000000010567867700000000000000011204034561009122430000000000000000000007636112040345600000000000000000000000000000076371120403456000000000000000000000000000000000011051991040000000000109972973210334396980000))))
 (.node 4 (.node 2 (.node 1 (.leaf 11204034560000000000000000000000000000000000112040345600000000000000000000000000000000001120403456000000000000000000000000000000000011204034560000000000000000000010217976370000112040345600000000000000000000000000000000001120403456000000000000000000000000000000000011204034561052855163000000000010470799010000112040345600000000000000000000106683051700001120403456106309802300000000001053766838763811204034561107833943104887127910795432617639112040345600000000000000000000000000000000001120403456000000000000000000000000000000000011204034560000000000000000000000000000000000112040345600000000000000000000000000000000001120403456108442232800000000000000000000000011204034560000000000000000000010272522627640)
 (.leaf 11204034560000000000105694447500000000007641112040345600000000000000000000000000000000001120403456000000000000000000000000000000000011204034560000000000000000000000000000000000112040345600000000000000000000000000000000001120403456110255230300000000001036684446000011204034561051314948000000000000000000000000112040345610906626880000000000000000000000001120403456000000000000000000000000000000000011204034560000000000000000000000000000000000112040345600000000000000000000000000000000001120403456000000000000000000000000000000000011204034560000000000000000000000000000000000112040345600000000001026349544103952240600001120403456000000000010411134941056142388000011204034560000000000000000000000000000007642))
 (.node 1 (.leaf 11204034560000000000000000000010439583870000112040345600000000000000000000000000000000001120403456000000000000000000000000000000000011204034560000000000000000000000000000000000112040345600000000000000000000000000000000001120010240000000000000000000000000000000000011204034560000000000000000000000000000000000112040345600000000001082525955103348414300001120403456000000000000000000001053677330000011204034560000000000000000000010513172020000112040345600000000000000000000000000000076431120403456000000000000000000000000000000764411204034560000000000000000000010161669867645112040345600000000001108994608105985929476461120403456000000000010403417420000000000000011204034560000000000000000000000000000000000)
 (.leaf 11204034560000000000000000000000000000000000112040345600000000000000000000000000000000001120403456000000000010356239891052018363000011204034560000000000000000000010357481457647112040345600000000000000000000000000000000001120403456000000000000000000000000000000000011204034560000000000000000000000000000000000112040345600000000000000000000000000000000001120403456000000000010976993741046881624000011204034561076059328000000000010414217950000112040345600000000001090411876105790088200001120403456105349739500000000001057711505000011204034560000000000000000000000000000000000112040345610393590000000000000000000000076481120403456106567410500000000001025605633764911204034560000000000000000000000000000007650)))
 (.node 2 (.node 1 (.leaf 11204034560000000000000000000000000000000000112040345600000000000000000000000000000000001120403456000000000000000000000000000000000011204034560000000000000000000000000000000000112040345600000000000000000000000000000000001120403456000000000000000000000000000000000011204034560000000000000000000000000000000000112040345600000000000000000000000000000000001120403456000000000000000000000000000000000011204034560000000000109775379510637369940000112040345600000000001033906002104217898300001120403456000000000000000000000000000000000011204034560000000000000000000000000000000000112040345600000000000000000000000000000000001120403456000000000000000000000000000000000011204034560000000000000000000000000000000000)
 (.leaf 11204034560000000000000000000000000000000000112040345600000000000000000000000000000000001120403456105487634810936472571054138701000011204034561088609709103348992710523083310000112040345600000000000000000000105789362176511120403456105717720900000000001053704581000011204034560000000000000000000000000000007652111896166400000000000000000000106142592976531120403456000000000000000000000000000000000011204034560000000000000000000000000000000000112040345600000000000000000000000000000000001120403456000000000000000000000000000000000011020533760000000000000000000000000000000000112040345600000000000000000000102778422900001120403456000000000010629926621073492924000011204034561069388136000000000010509518560000))
 (.node 1 (.leaf 11204034560000000000000000000000000000000000112040345600000000000000000000000000000000001120403456106998775400000000001027939133000011204034560000000000000000000010485313010000112040345610466942670000000000105345745200001120403456000000000000000000000000000000000011204034560000000000000000000000000000000000112040345600000000000000000000000000000000001120403456000000000000000000000000000000000011204034561087351036107196847210328967287654111896166410714365590000000000103552746976551120403456000000000000000000000000000000000011204034560000000000000000000000000000000000112040345600000000000000000000000000000000001120403456000000000000000000001024668027000011204034560000000000000000000000000000000000)
 (.leaf 11204034561060199322000000000010422889720000112040345600000000000000000000000000000000001120403456108120939200000000001050899677765611204034560000000000000000000000000000000000112040345600000000001072263751000000000000001120403456000000000000000000000000000000000011204034560000000000000000000000000000000000112040345600000000000000000000000000000000001112014848103090650500000000001070468477000011204034561070762954107573118210704592090000112040345600000000000000000000000000000000001120403456000000000000000000000000000000765711204034560000000000000000000000000000000000112040345600000000000000000000000000000000001120403456000000000000000000000000000000000011204034560000000000000000000000000000000000)))))
 (.node 8 (.node 4 (.node 2 (.node 1 (.leaf 11204034560000000000000000000000000000000000111791308810570223220000000000104031076800001119354880106644053100000000001042200797000011204034560000000000000000000010468183477658112040345610661756850000000000107035645100001120403456000000000000000000000000000000765911204034560000000000000000000000000000000000112040345610555005610000000000000000000000001120403456000000000000000000000000000000000011204034560000000000000000000000000000000000112040345600000000000000000000000000000000001118961664000000000000000000001061655008000011204034560000000000000000000000000000000000112040345600000000000000000000000000000000001120403456108839767000000000000000000000000011204034560000000000000000000000000000000000)
 (.leaf 11204034560000000000000000000000000000000000112040345600000000000000000000000000000000001120403456105485936900000000001031378129766011204034561053281640000000000000000000000000112040345600000000000000000000000000000000001120403456108096637400000000000000000000000011204034560000000000000000000000000000000000112040345600000000000000000000000000000000001120403456000000000000000000000000000000000011204034560000000000000000000010530136600000112040345600000000000000000000000000000000001120403456000000000000000000001059619942766111204034560000000000000000000000000000000000112040345600000000000000000000000000000000001120403456000000000000000000000000000000000011204034560000000000000000000000000000000000))
 (.node 1 (.leaf 11204034560000000000000000000000000000000000112040345600000000000000000000000000000000001120403456000000000000000000000000000000000011204034560000000000000000000000000000000000112040345600000000000000000000000000000000001120403456000000000000000000000000000000000011204034560000000000000000000000000000000000112040345600000000000000000000000000000000001112014848000000000000000000000000000000000011204034560000000000000000000010141038440000112040345600000000000000000000000000000076621120403456000000000010688470710000000000000011204034560000000000105026714300000000000000112040345600000000000000000000000000000000001120403456000000000000000000000000000000000011204034560000000000000000000000000000000000)
 (.leaf 11204034560000000000000000000000000000000000112040345600000000000000000000000000000000001120403456000000000000000000000000000000766311204034560000000000000000000010465298630000111489843200000000000000000000108303658076641120403456108042203300000000000000000000000011204034561102229466000000000000000000000000112040345600000000000000000000000000000000001120403456000000000000000000001047944561000011204034560000000000000000000000000000000000112040345600000000000000000000000000000000001120403456109985052400000000000000000000000011204034560000000000000000000000000000000000112040345600000000000000000000000000000000001120403456000000000000000000000000000000000011204034560000000000000000000010482893507665)))
 (.node 2 (.node 1 (.leaf 11204034560000000000000000000000000000007666112040345610896629830000000000000000000000001120403456107740831700000000000000000000000011204034560000000000000000000000000000000000112040345610712725620000000000105199632400001120403456105060718400000000000000000000000011204034561084004843000000000000000000000000112040345600000000000000000000000000000000001120403456000000000000000000000000000000000011204034560000000000000000000010267659830000112040345610163809250000000000107364055376671120403456000000000000000000001061065466000011204034560000000000000000000010216392567668112040345600000000000000000000000000000000001120403456000000000000000000000000000000000011204034560000000000000000000000000000000000)
 (.leaf 11204034560000000000109213793600000000000000112040345610981168000000000000000000000000001120403456000000000000000000000000000000000011204034560000000000000000000000000000000000112040345600000000000000000000104640227076691120403456000000000000000000001060469383000011120148481067592505101435047910326251690000112040345600000000000000000000000000000000001120403456000000000000000000000000000000000011204034560000000000000000000000000000000000112040345600000000000000000000000000000000001120403456000000000000000000000000000000000011204034560000000000000000000000000000000000112040345600000000000000000000000000000000001120403456107446506910603183730000000000000011204034560000000000000000000000000000000000))
 (.node 1 (.leaf 11204034560000000000000000000000000000000000112040345600000000000000000000000000000000001120403456000000000010551593800000000000000011204034561055854829106270409410004250757670112040345600000000000000000000000000000000001120403456000000000000000000000000000000767111204034561100960409103856335710501346380000112040345611021830480000000000104376736600001120403456108024133000000000000000000000000011204034560000000000106756361400000000007672112040345600000000000000000000000000000000001120403456000000000000000000000000000000000011204034560000000000000000000000000000000000112040345600000000000000000000000000000000001105199104105922567310411604711070288141767311204034560000000000000000000000000000000000)
 (.leaf 11204034561057794862000000000000000000000000112040345600000000001069215331000000000000001120403456000000000000000000000000000000000011204034560000000000110409668400000000000000112040345600000000000000000000000000000000001120403456000000000000000000000000000000000011204034561091785835102374572000000000007674112040345610904213041058024928000000000000001120403456000000000010695777190000000000000011204034560000000000107061455100000000000000112040345600000000000000000000000000000000001120403456104248962900000000000000000000000010936647681078679837000000000000000000000000112040345610815480820000000000000000000076751120403456108251522810453279311030411485767611204034560000000000000000000000000000000000))))
 (.node 4 (.node 2 (.node 1 (.leaf 11112284160000000000000000000010501789050000112040345611111982221055293597103817111676771120403456111126080810493477521051707768767811204034561066900151000000000000000000000000112040345600000000000000000000105561569900001120403456000000000010708704031017811786767911204034561096979888106610735210476461360000112040345611150750641049720206105772830400001120403456000000000010517938700000000000000011204034561067719592000000000000000000000000112040345600000000000000000000103064882676801120403456108775050410273427550000000000000011204034560000000000108696541610374542990000112040345600000000000000000000000000000000001113587712000000000000000000001061081804000011204034561089849107106181322310748324730000)
 (.leaf 11204034561074166426000000000000000000007681112040345610860840350000000000000000000000001120403456109730398210604844680000000000000011204034560000000000000000000000000000000000112040345610708386861030080797107097837476821120403456108753873510384157181057115572000011204034561048115499000000000010461049917683112040345610944495980000000000000000000000001120403456000000000010784067290000000000000011204034560000000000000000000000000000000000111896166400000000000000000000000000000000001120403456107991331010989811010000000000000011204034561111675482000000000000000000000000112040345610510911400000000000000000000000001120403456000000000000000000000000000000000011204034561099820895105138115110572639327684))
 (.node 1 (.leaf 11204034560000000000000000000000000000000000112040345600000000001062341706101667600300001107558400105202402000000000001074001409000011204034561089668072105028056510338174320000112040345600000000000000000000000000000000001120403456000000000000000000000000000000000011204034561118811547104599230910566268570000112040345611110154821076791083102694310500001120403456000000000000000000000000000000768511204034560000000000000000000000000000000000112040345600000000000000000000000000000000001120403456111379448210367782621049092409000011204034561120266259106574496400000000000000110834483211056281301061135424105868160300001120403456105019922900000000001050137506000011204034560000000000000000000000000000000000)
 (.leaf 11204034560000000000000000000000000000000000112040345600000000000000000000000000000000001120403456000000000010751674680000000000000011204034560000000000000000000000000000000000112040345600000000000000000000000000000000001120403456111710741010930524001069013157000011204034561080664661000000000000000000000000112040345600000000000000000000106594536400001120403456000000000000000000000000000000000011204034561077312812099521103110666479780000112040345600000000000000000000000000000000001120403456000000000000000000000000000000000011204034560000000000000000000000000000007686112040345610880095921031691410104871507500001120403456107355484200000000000000000000000011189616641111690641103841571800000000000000)))
 (.node 2 (.node 1 (.leaf 10994319361077501367108410448110602721607687112040345600000000000000000000105715194600001120403456000000000000000000000000000000000011204034561067791306000000000000000000000000112040345610841745490000000000000000000000001090519040000000000000000000001041785416000011204034560000000000000000000000000000000000112040345610596281921038429140000000000000001120403456000000000010706111950000000000000011204034560000000000000000000000000000000000112040345600000000000000000000000000000000001120403456109678854410994702610000000000000011204034561061831712000000000000000000000000112040345600000000000000000000000000000000001120403456000000000000000000000000000000000011204034561090243921108534284910319870610000)
 (.leaf 11004805120000000000106315204510401639940000112040345610628605751058524889000000000000001120403456000000000000000000000000000000000011204034560000000000000000000000000000000000112040345610671366930000000000000000000000001120403456000000000010687422140000000000000011204034561061252982000000000000000000000000112040345610869808701075281972000000000000001120403456107618152500000000000000000000000011204034561117899419000000000000000000000000112040345610970526080000000000000000000000001120403456110968847910346844650000000000000011204034560000000000000000000000000000000000112040345610793048261033476506000000000000001120403456000000000000000000000000000000000011204034560000000000000000000000000000000000))
 (.node 1 (.leaf 11204034561055174546000000000000000000000000112040345610809637780000000000000000000000001120403456107636575500000000001050122059000011204034560000000000000000000000000000000000111817523211145285250000000000000000000000001090519040106624385100000000001030816984000011204034561105267706104929742010543412650000112040345610643612970000000000000000000000001120403456000000000000000000000000000000000011204034561053077495000000000010654336240000112040345600000000000000000000000000000000001120403456105959648300000000000000000000000011204034561106347630101742406510276599990000112040345600000000000000000000000000000000001120403456111102674510546728401016564157000011204034560000000000000000000000000000000000)
 (.leaf 11204034561102547483105257568800000000000000112040345600000000001082685548000000000000001120403456107442530700000000000000000000000011204034561109611417106541445310790309517688112040345610582484170000000000000000000000001120403456105930298300000000000000000000000011204034561104454263106539851410841915710000112040345609722098711099540201000000000000001120403456000000000010837513210000000000000011204034561070560855000000000000000000000000112040345610752545750000000000000000000000001120403456108299014900000000000000000000000011204034561069936567104485145800000000000000112040345610750322390000000000101603920100001120403456000000000000000000001025374560000011204034561068339015000000000000000000000000)))))))
 (.node 32 (.node 16 (.node 8 (.node 4 (.node 2 (.node 1 (.leaf 11204034560000000000000000000010450149840000111935488011062556571026161639103535339400001120403456107217307900000000000000000000000011204034561051097012000000000000000000000000112040345610998156261041381930000000000000001120403456000000000000000000000000000000000011204034561076364455000000000010473444080000112040345610727981480000000000000000000000001120403456107517836500000000001051193701000011204034561120403456000000000000000000000000112040345611203972831027663804000000000000001120403456109166040100000000000000000000000011204034561093367282000000000000000000000000112040345611166087441071409791103851668800001120403456105101470309784338150000000000000011204034561078301255000000000000000000000000)
 (.leaf 11204034561085634949000000000000000000000000112040345611033934050000000000000000000000001120403456110365566600000000000000000000000011204034561104081691000000000000000000000000112040345610750149590000000000000000000000001120403456000000000000000000001055194768000011204034561089716657103002711000000000000000112040345610636951240000000000000000000000001120403456106336050200000000001062274892000011204034561078574765000000000010489605680000112040345610649785810000000000000000000000001120403456109908402610597613701071204931768911204034561110363549105840241510652547847690112040345611088901661062175611105149722776911120403456110009900810581490791085201128000011204034561073017451000000000010692213240000))
 (.node 1 (.leaf 11204034561080476303101688719410404275830000112040345610844025721010055512100995411600001120403456108668354200000000000000000000000011204034561068763596000000000010134346530000112040345610728519940000000000103983067300001120403456000000000000000000000000000000769211204034561093999533108841329000000000000000112040345600000000000000000000000000000000001120403456000000000010753750860000000000000011204034561065533420000000000010539813270000112040345610462933590000000000000000000000001120403456105878236900000000000000000000000011204034561079178955102865808910290639207693112040345610745699430000000000000000000000001106771968105749637910914227030000000000000011175198721108174446110945939000000000000000)
 (.leaf 11181752321082839722000000000000000000000000112040345611100544811041301399104530703300001120403456111560436010644539571071875482000011204034561078703442000000000000000000000000112040345611182463261021665346101969766500001120403456000000000000000000000000000000000011204034560000000000000000000010466197270000112040345600000000000000000000104496171276941120403456106659672600000000001027482314769511204034561112125262103190615810386476420000112040345611112898191059447636107339998200001118568448111379293010492672211054864974000011204034561100001381000000000000000000000000112040345611022157510000000000000000000000001120403456110311617100000000000000000000000011204034560000000000000000000000000000000000)))
 (.node 2 (.node 1 (.leaf 11204034561004445748000000000000000000000000112040345611050563580000000000000000000000001120403456000000000010774315531036730570000011204034561087302504000000000000000000000000112040345611142806971042053018104967766500001120403456108627829010255979251032712689000011204034561084025490105096172010582925430000112040345610779816450000000000000000000000001120403456106378818700000000000000000000000011204034561112985044000000000000000000000000112040345611113915241006726912105169255576961120403456107916975210541930120000000000000011204034561093973597000000000000000000000000112040345610790173940000000000000000000000001120403456106350757100000000000000000000000011204034560000000000000000000010069268320000)
 (.leaf 11204034561075006331000000000000000000000000112040345610744565290000000000000000000000001120403456111028479710415631241052936387769711204034561091173266107559402900000000000000112040345611142296330000000000000000000000001120403456106668459700000000000000000000000011204034561069030673105323335500000000000000112040345610739838351057204522101403367000001120403456104631235110772511980000000000000011204034561072698088106023952110237945550000112040345611081364361058598709000000000000001120403456110729677600000000000000000000000011204034560000000000000000000010263024120000112040345600000000000000000000000000000000001120403456107404751710694359520000000000000011204034560000000000000000000000000000007698))
 (.node 1 (.leaf 11204034561105011355102527580200000000000000112040345610737649050000000000000000000000001120403456110830083100000000000000000000000011171266560000000000000000000010373712590000112040345600000000000000000000103256131200001120403456110178079610306445120000000000769911204034560000000000000000000000000000000000110519910411042199340000000000107076894000001120403456000000000000000000001050956322000011204034561064360223000000000000000000000000112040345610756435170000000000103209637300001120403456110737490200000000000000000000000011204034560000000000106130990700000000000000112040345600000000000000000000000000000000001120403456000000000000000000000000000000000011204034561045796754000000000000000000000000)
 (.leaf 11204034561107613646000000000000000000000000112040345611038733231021396910103955901000001120403456110081000300000000001019756785000011204034560000000000000000000000000000000000112040345610801665370000000000000000000000001120403456000000000000000000000000000000000011204034560000000000105943757000000000000000112040345600000000000000000000000000000000001120403456107422555300000000000000000000000011204034561058827517000000000010258956290000112040345610963216520000000000000000000000001120403456107668190510678169500000000000000011204034561099765163000000000000000000000000112040345611181180201057605498106585272700001086324736103028990800000000000000000000000011204034561083410783000000000000000000000000))))
 (.node 4 (.node 2 (.node 1 (.leaf 11204034560000000000000000000000000000000000112040345610863320970000000000000000000000001120403456106812831900000000001053787630000011204034560000000000000000000000000000000000112040345600000000000953267991000000000000001120403456000000000000000000000000000000770011204034561074020103000000000000000000000000112040345610646597130000000000000000000000001120403456110819477800000000001024972126000011196170240000000000000000000010688011930000112040345600000000000000000000000000000000001120403456106337919200000000000000000000000011204034561033679577000000000000000000000000112040345610990201950000000000000000000000001120403456000000000000000000000000000000000011204034560000000000000000000000000000000000)
 (.leaf 11204034561083216465109704160200000000000000112040345600000000000000000000000000000000001120403456000000000000000000001017508467000011204034561094324611106235512810661926790000112040345610982296781042012753107794741077011120403456107384099400000000001031711702000011204034561052392783000000000000000000000000112040345610655181280000000000000000000000001120403456000000000000000000000000000000000011204034561057912034110116004200000000000000112040345600000000000000000000000000000000001120403456110302134400000000000000000000000011204034561084953249000000000000000000000000112040345600000000001090110515000000000000001120403456108106567900000000001056460527000011204034561100920081000000000000000000000000))
 (.node 1 (.leaf 11204034561083404989000000000000000000007702112040345610924534841089562319000000000000001100480512000000000000000000000000000000000011204034561036053889105143483810778361990000112040345610735890840000000000000000000077031120403456105980480600000000000000000000000011204034560000000000000000000000000000000000112040345610675259240000000000000000000000001120403456110354679300000000000000000000000011204034560000000000000000000010375873190000112040345600000000000000000000000000000000001120403456000000000000000000000000000000000011204034561067647198000000000000000000000000112040345600000000001083270863106012327300001120403456000000000010593520060000000000000011204034561076988823106801240500000000000000)
 (.leaf 11204034561100133193109361905010609646920000111607808010494346241060576743103186517100001120403456000000000000000000000000000000770411204034561070036811000000000000000000000000112001024010631151351033704676106005276200001106771968108705641610212358491035128980000011204034561092171031107580458310578111240000112040345611168804070000000000000000000000001120403456000000000000000000000000000000000011204034560000000000000000000000000000000000112040345600000000000000000000000000000000001120403456000000000000000000001024969856000011036262400000000000000000000000000000000000112040345611202918161042321237106023531400001120403456112040345600000000000000000000000011204034561038299083000000000010534176470000)))
 (.node 2 (.node 1 (.leaf 11204034561097584746106377112510759953717705112040345600000000000000000000000000000077061120403456111523779300000000000000000000000011204034561112120660000000000000000000000000112040345610843332110000000000000000000000001120403456000000000000000000000000000000770711204034561107458107000000000000000000000000112040345610941030111101734189000000000000001120403456000000000000000000000000000000000011204034560000000000000000000000000000000000111122841600000000001045978887106117419700001120403456000000000000000000001016831388000011204034560000000000000000000010201396280000112040345611204034560000000000000000000000001120403456000000000000000000000000000000770811204034560000000000104767003010422248320000)
 (.leaf 11204034561096162374000000000000000000000000112040345600000000000000000000102724866400001120403456000000000000000000000000000000000011204034560000000000000000000000000000007709112040345611128980551048888056000000000000001120403456000000000000000000000000000000000011204034560000000000000000000010433930240000112040345600000000000000000000000000000000001120403456108640437100000000000000000000000011204034561066728662000000000000000000007710112040345611126855730000000000000000000000001120403456000000000010458782240000000000000011020533761050579502000000000000000000000000112040345600000000001097376937000000000000001120403456109557468000000000000000000000000011204034560000000000000000000000000000000000))
 (.node 1 (.leaf 11204034561082967693102404099910699108570000112040345600000000000000000000000000000000001120403456000000000000000000000000000000000011204034560000000000000000000000000000000000112040345611189813491042865036000000000000001120403456000000000000000000000000000000000011204034560000000000000000000000000000000000112040345610709266740000000000000000000000001120403456000000000000000000000000000000000011204034560000000000000000000000000000000000112040345600000000000000000000000000000077111120010240104522371110483344080000000000000011204034560000000000000000000000000000000000112040345610233645420000000000000000000000001120403456106733790200000000000000000000000011204034560000000000000000000000000000000000)
 (.leaf 11204034560000000000000000000000000000000000112040345600000000000000000000000000000000001120403456000000000000000000000000000000000011204034560000000000000000000000000000000000112040345600000000000000000000000000000000001120403456000000000000000000000000000000000011204034560000000000107988438200000000000000112040345600000000001073915049000000000000001120403456000000000000000000000000000000000011204034560000000000000000000000000000000000112040345610624525530000000000103585448500001120403456106945265300000000001015326043000011204034560000000000000000000000000000000000112040345600000000000000000000103060133500001120403456000000000000000000000000000000771211204034560000000000000000000000000000000000)))))
 (.node 8 (.node 4 (.node 2 (.node 1 (.leaf 11204034560000000000000000000000000000000000112040345600000000000000000000000000000000001120403456111605629300000000000000000000000011204034560000000000000000000000000000007713111856844800000000000000000000000000000000001120403456000000000000000000000000000000000011204034561105785555000000000000000000000000112040345600000000000000000000000000000000001120403456000000000000000000000000000000000011204034560000000000000000000010121555350000112040345611170032680000000000000000000000001120403456105352279600000000000000000000000011204034560000000000000000000000000000000000112040345600000000000000000000000000000000001120403456000000000000000000001041017272000011204034560000000000000000000000000000000000)
 (.leaf 11204034560000000000000000000000000000000000112040345611204034560000000000000000000000001120403456000000000000000000000000000000000011204034560000000000000000000000000000000000112040345610665823230000000000000000000000001120403456000000000000000000000000000000000011204034560000000000000000000010525882620000112040345600000000000000000000000000000000001120403456000000000000000000000000000000000011204034560000000000000000000000000000000000112040345600000000000000000000000000000000001120403456108530497710423617190000000000000011204034560000000000000000000000000000000000112040345600000000000000000000000000000000001120403456000000000000000000000000000000000011204034561038895815000000000010344840770000))
 (.node 1 (.leaf 10994319361049193536000000000000000000000000107793612800000000000000000000000000000000001120403456000000000000000000000000000000000011204034560000000000107084356000000000000000112040345600000000000000000000000000000000001120403456000000000000000000000000000000000011156848640000000000000000000010627556860000112040345600000000000000000000000000000077141120403456000000000010906579760000000000000011204034560000000000000000000000000000000000112040345610762851071067192838104957546477151120403456000000000000000000000000000000000011204034560000000000000000000000000000000000112040345600000000000000000000000000000000001120403456000000000000000000001050523012000011171266560000000000000000000000000000000000)
 (.leaf 11204034560000000000000000000000000000000000112040345600000000000000000000000000000000001120403456000000000000000000000000000000771611204034561101150849104040214000000000000000112040345600000000000000000000000000000000001120403456000000000000000000000000000000000011204034561109019757000000000000000000000000112040345600000000000000000000000000000077171120403456108538956810769752131063435684000011204034560000000000000000000000000000000000112040345600000000000000000000102715903300001118961664000000000000000000000000000000000011204034561079823254000000000000000000007718112040345600000000000000000000000000000000001120403456000000000000000000000000000000000011204034560000000000000000000000000000000000)))
 (.node 2 (.node 1 (.leaf 11204034560000000000000000000000000000000000112040345600000000000000000000101847247000001120403456000000000000000000000000000000000011204034560000000000000000000000000000000000112040345610908007660000000000000000000000001120403456000000000000000000000000000000000011204034560000000000108671522600000000000000112040345600000000000000000000000000000000001120403456000000000000000000000000000000000011204034561099288999105176702600000000000000112040345610475448721059833512000000000000001120403456000000000000000000000000000000000011204034560000000000108480388100000000000000112040345600000000001062954074000000000000001120403456000000000000000000000000000000000011204034560000000000000000000000000000000000)
 (.leaf 11204034560000000000000000000010183086790000112040345600000000000000000000000000000000001120403456106696550600000000001024816545000011204034560000000000000000000000000000000000111817523200000000000000000000098300249000001120403456108721179810616639060000000000000011204034561104537623104475750600000000000000112040345611183191811059727815106937052300001120403456000000000000000000001040405335771911204034561083870728103236249800000000000000112040345600000000000000000000102751250000001120403456105189399600000000001032344239000011204034561101218388106717689900000000000000112040345610635144330000000000104891980700001120403456109313882800000000000000000000000011204034561100816657000000000010476366960000))
 (.node 1 (.leaf 11204034560000000000000000000000000000000000112040345600000000000000000000000000000000001120403456108907831100000000000000000000000011204034560000000000000000000000000000007720112040345600000000000000000000000000000000001120403456000000000010705675750000000000000011204034560000000000000000000000000000000000112040345600000000000000000000000000000000001120403456111583900300000000000000000000000011141120000000000000000000000000000000000000112040345611037251970000000000000000000000001120403456000000000000000000001027635908000011204034560000000000000000000010447640400000111411200000000000000000000000000000000000001120403456000000000000000000000000000000000011204034560000000000000000000000000000000000)
 (.leaf 11204034560000000000000000000000000000007721112040345610865535231091283976107208456977221117126656000000000000000000001041360085772311204034560000000000000000000000000000000000112040345600000000000000000000000000000000001120403456000000000000000000001048236584000011204034560000000000000000000000000000000000112040345600000000000000000000000000000000001114112000000000000000000000001039366987000011204034560000000000000000000010179775080000112040345600000000001095357694105546031200001114898432000000000000000000000000000000772411204034560000000000000000000000000000000000112040345600000000000000000000000000000000001120403456000000000000000000001059244174000011204034561100271792000000000000000000000000))))
 (.node 4 (.node 2 (.node 1 (.leaf 11204034560000000000105937717200000000000000112040345600000000000000000000106262498000001120403456000000000000000000001074846420772511204034560000000000000000000010255298210000112040345600000000000000000000000000000000001116078080000000000000000000001052682090000011004805121070625397000000000010418489240000112040345600000000000000000000000000000000001120403456101642333811020405831057570190000011204034561080576853000000000000000000000000112040345600000000000000000000000000000077261120403456000000000000000000000000000000000010936647680000000000000000000010472545780000112040345600000000000000000000000000000000001120403456000000000000000000000000000000772711204034560000000000000000000010685160167728)
 (.leaf 11204034560000000000000000000010681479050000112040345600000000000000000000104060472800001120403456000000000000000000001060188699000011204034560000000000000000000010591753190000112040345600000000000000000000000000000000001117519872000000000000000000001073993783000011204034560000000000000000000010616895610000112040345600000000000000000000000000000077291120403456000000000000000000000000000000773011204034560000000000000000000000000000007731112040345600000000000000000000000000000077321120403456000000000000000000000000000000000011204034560000000000000000000010601167180000111935488000000000000000000000106643377600001120403456000000000000000000001059229991000011204034560000000000000000000000000000007733))
 (.node 1 (.leaf 11204034560000000000000000000000000000000000112040345600000000000000000000106992254700001116733440000000000000000000001048521708000011204034560000000000000000000000000000000000112040345610418355190000000000104299667900001120403456000000000000000000000000000000000011204034560000000000000000000000000000000000112040345600000000000000000000000000000000001120403456000000000000000000000000000000000011204034560000000000000000000000000000000000112040345600000000000000000000000000000000001120403456000000000000000000000000000000000011204034560000000000000000000000000000000000112040345600000000000000000000108179289400001120403456000000000000000000000000000000000011204034560000000000000000000000000000000000)
 (.leaf 11204034560000000000000000000000000000000000112040345600000000000000000000000000000000001120403456103806594700000000001068794948000011204034560000000000000000000010728819500000112040345600000000000000000000000000000000001120403456000000000000000000000000000000000011204034560000000000000000000000000000000000112040345600000000000000000000000000000000001120403456000000000000000000000000000000000011204034560000000000000000000000000000000000112040345600000000000000000000000000000000001120403456000000000000000000000000000000000011204034560000000000000000000000000000000000112040345600000000000000000000000000000000001120403456000000000000000000000000000000000011204034560000000000000000000000000000000000)))
 (.node 2 (.node 1 (.leaf 11204034560000000000000000000000000000000000112040345600000000000000000000000000000000001120403456000000000000000000000000000000000011204034560000000000000000000000000000000000112040345600000000000000000000000000000000001120403456000000000000000000000000000000000011204034560000000000000000000000000000000000112040345600000000000000000000106706321900001120403456000000000000000000000000000000000011204034560000000000000000000000000000000000112040345600000000000000000000000000000000001120403456000000000000000000000000000000000011204034560000000000000000000000000000000000112040345600000000000000000000000000000000001120403456000000000000000000000000000000000011204034560000000000000000000000000000000000)
 (.leaf 11204034560000000000000000000000000000000000112040345600000000000000000000000000000000001120403456000000000000000000000000000000000011204034560000000000000000000010718593580000111961702400000000000000000000107456998200001120403456102703727600000000001069146455000011175198720000000000000000000010837593700000112040345600000000000000000000000000000000001120403456000000000000000000000000000000000011196170240000000000000000000010794478720000112040345600000000000000000000000000000000001120403456000000000000000000000000000000000011204034560000000000000000000000000000000000112040345600000000000000000000108361519377341120403456000000000000000000000000000000000011181752320000000000000000000010493197010000))
 (.node 1 (.leaf 11204034560000000000000000000000000000000000112040345600000000000000000000000000000000001120403456000000000000000000000000000000000011204034560000000000000000000010619314220000112040345610610260870000000000108381586000001118568448000000000011078998161056054333000011204034560000000000000000000000000000000000112040345610691321410000000000107350612100001120403456107411796900000000001055388843000011204034560000000000000000000010771750630000112040345600000000000000000000106197144300001120403456000000000000000000001074088193000011179130881094858361107230737210508029620000112040345600000000001107847073104195993800001120403456000000000000000000001083863544000011204034561082470198000000000010607663670000)
 (.leaf 11204034560000000000107022615810741510977735112040345600000000000000000000000000000000001120403456000000000000000000000000000000000011204034560000000000000000000010559373440000112040345600000000000000000000109252711700001120403456000000000000000000000000000000000011204034560000000000000000000000000000000000112040345600000000000000000000107001366200001120403456000000000010876146941048817577000011204034561062171987107737031610917095387736112040345600000000000000000000105781036400001120403456000000000000000000001102364411000011135877120000000000000000000010810716410000112040345600000000000000000000108119353177371120403456000000000000000000001054968636000011204034560000000000000000000010518666580000))))))
 (.node 16 (.node 8 (.node 4 (.node 2 (.node 1 (.leaf 11204034560000000000000000000010305674380000112040345610662679351114661349109920244900001120403456000000000000000000000000000000000011204034560000000000000000000000000000000000112040345610250111251070242097108925466200001120403456104089545810659219641095765353000011204034560000000000105845106910920293770000110991769600000000001107745387107851871900001112801280107115468511102136301081256326000011204034560000000000000000000010727123760000112040345600000000000000000000108835034000001120403456000000000000000000000000000000000011204034560000000000000000000010483822950000112040345600000000001069265663108195468100001120403456000000000000000000001050656456000011204034560000000000000000000000000000000000)
 (.leaf 11163402240000000000110062584510990936680000112040345600000000000000000000108679724377381120403456000000000000000000000000000000000011204034560000000000000000000000000000000000112040345600000000000000000000000000000000001120403456000000000000000000000000000000000011204034560000000000000000000000000000000000112040345600000000000000000000000000000000001120403456000000000000000000001056481577000011204034560000000000000000000000000000000000112040345600000000000000000000000000000000001120403456000000000000000000000000000000000011204034560000000000000000000010894544120000112040345600000000001095803758108882867000001120403456000000000000000000001052554244000011204034560000000000000000000000000000000000))
 (.node 1 (.leaf 11204034560000000000000000000000000000000000112040345600000000000000000000000000000000001120403456000000000000000000000000000000000011204034560000000000000000000000000000000000112040345610763574340000000000106745761200001120403456000000000000000000001075674402773911204034560000000000000000000010387137990000112040345610829272011094823654109265926700001120403456000000000010711078010000000000000011204034560000000000111378741310438391730000109366476800000000000000000000106867142300001107558400000000000000000000001068246884000010968104961060866754000000000010715272180000112040345600000000000000000000107617982700001120403456000000000000000000001074362178774011204034560000000000000000000010770104887741)
 (.leaf 11204034560000000000000000000010836703880000112040345600000000000000000000103220781300001120403456000000000000000000001052049064774211204034560000000000000000000010515482170000112040345600000000000000000000104765845300001120403456000000000000000000000000000000000011204034560000000000000000000000000000000000112040345600000000000000000000000000000000001120403456000000000010393686640000000000000011204034560000000000000000000010928334450000112040345600000000000000000000100884327200001119617024000000000000000000001059166275000011020533760000000000000000000010681420610000112040345600000000000000000000000000000000001120403456000000000000000000000000000000000010863247360000000000000000000000000000000000)))
 (.node 2 (.node 1 (.leaf 11204034560000000000000000000010846769937743112040345600000000000000000000106737980800001120403456000000000010360400640000000000000011204034561068075126000000000010421531280000112040345611110674511082197960110119551677441120403456000000000010720439701054280379000011204034560000000000111520833910509380500000112040345600000000000000000000107517939400001120403456000000000000000000001074094479000011196170240000000000000000000010816190527745110519910400000000000000000000106622407300001120403456000000000000000000000000000000000011204034561102839397104560307710663885860000112040345600000000000000000000105932708677461120403456000000000000000000001034062294000011204034560000000000000000000000000000000000)
 (.leaf 11204034560000000000000000000010328193950000112040345600000000001070918219000000000000001120403456106187127311100982080000000000000011204034560000000000111675496210518204930000112040345610791786951107616072106139802000001120403456106500656500000000001076386345000011204034560000000000000000000000000000000000112040345611062788381049673230106259217777471120403456109375626810151692081074227915000011204034560000000000000000000010425090250000112040345600000000000000000000000000000000001120403456000000000010738496181027728955000011204034560000000000000000000010404923180000112040345600000000000000000000000000000000001120403456000000000000000000000000000000000011204034560000000000000000000010296838830000))
 (.node 1 (.leaf 11204034560000000000000000000000000000000000112040345600000000000000000000000000000000001120403456000000000000000000001040214015000011204034561086745114111129859210806444010000112040345600000000001044254189000000000000001120403456000000000010297855181050390000000011204034560000000000111004627810580348740000112040345600000000001111716030107679085000001120403456000000000011169537721068288798000011204034561061989888110305377010731242290000112040345600000000000000000000106624691100001120403456000000000000000000001087025460774811204034560000000000000000000000000000000000112040345600000000000000000000108416170877491120403456000000000000000000001084040543000011160780800000000000000000000010835877590000)
 (.leaf 11204034560000000000000000000000000000000000112040345610622426191063641940106651943900001120403456000000000000000000001041226079000011204034560000000000102514158510315486820000112040345600000000000000000000000000000000001120403456000000000000000000000000000000000011204034561111771311107610825010857574750000112040345600000000000000000000104455246000001120403456107591506911162581731064302830000011204034560978846132109940787110644208580000112040345600000000001107757131107649406900001120403456000000000000000000001047977889775011204034560000000000000000000010595158417751112040345600000000000000000000000000000000001120403456109259030510798134981066619245000011204034561101212786105532715210672611100000))))
 (.node 4 (.node 2 (.node 1 (.leaf 11204034561067722058000000000010724593020000112040345610710871400000000000000000000000001120403456105348840210674797281078313588000011204034560000000000000000000000000000000000112040345610739778631056075416104179900400001120403456106081618710608569220000000000000011204034560000000000108020147200000000000000109051904000000000000000000000104566046500001120403456000000000000000000000000000000000011204034560000000000000000000010820634440000112040345600000000000000000000107078056577521120403456000000000011096574921054444652000011204034560000000000000000000000000000000000112040345600000000000000000000000000000000001120403456000000000000000000000000000000000011204034560000000000105740584910672543630000)
 (.leaf 11204034560000000000107512594410138497610000112040345610705055830000000000000000000000001120403456108397014010647626581088467194000011104419840000000000110236889310800981250000112040345600000000000000000000000000000000001120403456000000000000000000001090674214775311204034560000000000000000000010795753337754112040345600000000000000000000108192595600001120403456000000000000000000001075558116000011204034560000000000000000000010635408070000112040345610671726300000000000106109718900001120403456109207729910899440011061619275000011204034561117325976105762563010659194400000112040345600000000000000000000000000000000001120403456000000000000000000000000000000000011204034560000000000000000000000000000000000))
 (.node 1 (.leaf 11204034560000000000000000000010772141110000112040345600000000000000000000106545896100001120403456000000000000000000001082694174000011204034561062040152110005814600000000000000112040345610826415251087358213108686791877551120403456000000000011033056381060093683775611204034560000000000102543686410993735527757112040345600000000000000000000110102278077581120403456107670188300000000001093246897000011204034560000000000000000000010785955830000112040345600000000000000000000108245587700001120403456000000000010792694971079499843000011204034561067332374110031331700000000000000112040345611175740811074982080105879630500001120403456000000000010540252401062452745000011204034560000000000000000000000000000000000)
 (.leaf 11204034561063546696000000000010431527050000112040345610674606441077986040000000000000001120403456000000000010961784140000000000000011204034561077976058104338177410576115290000112040345610523773140000000000000000000000001120403456000000000000000000001042981239000011204034561052759667107564058510878793397759112040345600000000001024738932109859954477601120403456000000000000000000000000000000000011204034560000000000000000000010249362950000112040345610528364730000000000108163358700001120403456000000000000000000001075151707776111204034560000000000109699452110914544890000112040345600000000000000000000104879168500001120403456109077984311135856671070911943000011204034561083328745105104225110891967950000)))
 (.node 2 (.node 1 (.leaf 11204034560000000000107882867610595148800000112040345600000000001072753646000000000000001120403456109411196210954328770000000000000011204034561058917342000000000010821624210000112040345610679282250000000000000000000000001120403456000000000010983175091072094616000011204034561102324413109077206110668437890000112040345600000000001065356571000000000000001120403456000000000000000000000000000000000011204034561075770022106392715300000000000000112040345610457211221083767049000000000000001120403456109732833310804908790000000000000011204034561048058188111649735310806938860000112040345610667324291093765431106927322600001120403456106493462400000000001033559655000011204034560000000000110457672210898014657762)
 (.leaf 11204034561065897091000000000010803098400000112040345610563587490000000000000000000000001120403456000000000010883747021036872648000011204034560000000000000000000000000000000000112040345600000000001073151266104896500700001120403456104975087511169907211064479540000011204034561039105866000000000010473354970000112040345600000000001112533946106637724300001120403456000000000000000000001090520660000011204034560000000000000000000010806323410000112040345600000000000000000000107916902377631120403456107366805510915655191056625988000011204034561070169040107804350200000000000000112040345610335535471069002260000000000000001120403456000000000000000000000000000000000011204034561060230327000000000000000000000000))
 (.node 1 (.leaf 11204034561090881059000000000000000000000000112040345610878900171109038858102787424200001120403456000000000000000000001086153997000011204034561062970533000000000010709000940000112040345610409115641080073126107758358577641120403456102608701400000000001086109185776511204034560000000000000000000010871641010000112040345600000000001113827993110102832277661120403456000000000000000000001078467013776711204034560000000000000000000010878132777768112040345600000000001099006791103931008100001120403456107719963800000000000000000000000011204034561074385612000000000000000000000000112040345611012994801092989485000000000000001110441984000000000010488578570000000000000011204034561060617696000000000010442882990000)
 (.leaf 11204034561067961939101677982010394706510000112040345600000000001071346038108732118677691120403456000000000000000000001077078650000011204034560000000000000000000010821308727770112040345600000000000000000000107258174477711120403456107628197010823449710000000000000011204034561073703220106841421910355430720000112040345611033638171087243708108609227800001120403456000000000010358253160000000000000011204034560000000000108621694200000000000000112040345600000000000000000000104957705300001120403456108811410600000000000000000000000011204034560000000000109724062210638621330000112040345610756203650000000000103502264100001120403456105593327900000000001062651439777211204034561037018646110010921110462483757773)))))
 (.node 8 (.node 4 (.node 2 (.node 1 (.leaf 11204034560000000000000000000010919331957774112040345600000000000000000000109420948300001120403456110043692911106004501096775186777511204034560000000000000000000010917237987776111856844800000000001041113494107415320900001120403456000000000000000000001079356127777711204034561072145329000000000010569153010000112040345600000000001094841165000000000000001120403456000000000000000000000000000000000011036262400000000000109089390610337211370000112040345610689717090000000000106839198300001120403456000000000011058299801060358031777811204034560000000000000000000010864032877779112040345600000000000000000000109269298377801120403456000000000000000000001065647201778111204034560000000000000000000010801595927782)
 (.leaf 11204034561064268250000000000010403687010000112040345600000000000000000000000000000000001120403456000000000000000000000000000000000011204034561069332746000000000010693637150000112040345600000000000000000000108280696477831120403456106215823000000000001080242815000011204034560996168809106550924410403299030000112040345610706772051100938635106064815300001120403456111822794810738215161084957556000011204034561040269869110911957210633600210000112040345610792943861109228546000000000000001120403456000000000000000000000000000000000011204034561065491192101785356200000000000000112040345600000000001025087898103938017500001120403456000000000010167261331068623431000011181752320000000000104948532510412232750000))
 (.node 1 (.leaf 11204034560000000000110954959310503728580000112040345600000000001088779872104873318577841120403456000000000010999834871076917223000011204034561094778833109058992410841578617785112040345600000000000000000000109441993077861120403456106651271500000000001081190540778711204034560000000000000000000010875251727788110991769600000000000000000000106990978200001120403456108489796810907849591041283830000011204034560000000000000000000000000000000000112040345600000000000000000000103908857000001120403456000000000000000000000000000000000011204034561081357522105812726900000000000000111568486400000000001087605047105828847500001119617024000000000000000000001066057112000011204034560000000000102696694610853671107789)
 (.leaf 11196170240000000000000000000010760729337790112040345600000000001083352442105628973177911120403456000000000000000000000000000000000011204034560000000000111031662700000000000000112040345610365717011113110426106100203000001120403456111228717710656568841042255249000011204034560000000000000000000010572379030000112040345600000000000000000000000000000000001112014848000000000000000000000000000000000011204034561081955689111649414210446301130000112040345610662167061116730609106573816700001120403456105315876411163555731057074911000011204034561047221609105602508410908552407792112040345610560704491088513953108767385277931118961664111599560410991985231067483977000011204034560000000000000000000010942335780000)))
 (.node 2 (.node 1 (.leaf 11204034560000000000109490607210606035550000112040345600000000001052887745000000000000001120403456000000000000000000000000000000000011204034560000000000000000000000000000000000112040345610677161361051075805000000000000001120403456105055312800000000000000000000000011204034560000000000000000000000000000000000112040345610613129940000000000000000000000001120403456105987045500000000000000000000000011181752320000000000109354407710457303980000112040345600000000000000000000104078145000001120403456000000000011170962870000000000000011204034561039165861000000000010830910300000111358771200000000000000000000106296143900001120403456000000000000000000000000000000000011204034560000000000000000000000000000000000)
 (.leaf 11204034560000000000000000000000000000000000112040345600000000000000000000000000000000001120403456109591684610741432191087017851000011204034561068632667000000000010889312450000112040345610806666661043120049105442948777941120403456000000000010168335070000000000000011204034561049629207104983093600000000000000112040345600000000000000000000000000000000001120403456000000000000000000000000000000779511204034560000000000111706805410554418350000112040345600000000001116881145105997241977961120403456000000000000000000001087940131779711204034561071454527000000000010820769620000112040345600000000000000000000104685632500001120403456000000000000000000001026462897000011204034560000000000109434864900000000000000))
 (.node 1 (.leaf 11204034561026904132000000000000000000000000112040345600000000000000000000000000000000001120403456000000000000000000000000000000000011204034561062532949000000000000000000000000112040345600000000000000000000103198739177981120403456000000000011155860091080565942779911204034560000000000000000000000000000007800112040345600000000001089735125000000000000001120403456000000000000000000001065549045000011204034560000000000000000000000000000000000112040345600000000000000000000000000000000001120403456103350147010667977341060568063000011204034561067306470104562992100000000000000112040345610676767010000000000103726647700001120403456111271413210859527011084900858780111204034560000000000110476656610642458150000)
 (.leaf 11204034561060243279107835472010577014650000112040345610675375841059648963000000000000001120403456106675070800000000001051103029000011204034561060642442110793620210542929730000112040345600000000001107128484108515671678021120403456000000000011164089841087287402000011204034561107232353107752928110911945107803112040345610569144440000000000106836534400001120403456000000000000000000001070381397000011204034560000000000000000000000000000000000112040345600000000000000000000000000000078041120403456107343877700000000000000000000000011204034561055780808000000000010830004637805112040345600000000001042838192104755003100001120403456106500440110671760610000000000000011204034560000000000110520350810965501647806))))
 (.node 4 (.node 2 (.node 1 (.leaf 11204034560000000000111689849910727149350000112040345610492132991116579850108535144400001120403456000000000010624406911071840274000011204034560000000000000000000010763507810000112040345600000000000000000000000000000000001120403456000000000000000000001045482416000011204034560000000000000000000010825303757807112040345610691653770000000000000000000000001120403456000000000000000000000000000000000011204034561093654038000000000010286081357808112040345610674103380000000000106050491100001120403456107391317411078483311049317190000011204034560000000000110753048210711902867809112040345610335790481098993684108204159578101120403456000000000010595751431088278284781111204034561099175510110137195910919009827812)
 (.leaf 11204034561053950514000000000010660316290000112040345600000000000000000000000000000000001120403456000000000000000000001065214745000011204034561071328497000000000000000000000000112040345600000000001078540527106395860400001120403456105582486500000000001082622018000011204034561089164959108646923010933426077813111673344010498064751039033120105237825500001120403456000000000000000000001070074184000011204034560000000000000000000010778090860000112040345600000000000000000000000000000000001120403456000000000000000000001057878264000011204034560000000000106701751610083703657814112040345610710908981107507963108259505400001120403456000000000011079791671061934237000011204034560000000000110803925110543030850000))
 (.node 1 (.leaf 11204034560000000000110786023310681155677815112040345600000000001117049677105759709900001120403456000000000000000000001080837732000011204034560000000000000000000000000000000000112040345600000000000000000000107483998178161120403456105013440200000000001023471860000011204034560000000000103029554500000000000000112040345600000000001036939323103872161100001120403456000000000011080469051045165416000011204034560000000000111010491910816770920000112040345600000000001114916782109331886978171118568448000000000000000000001050646281000011204034560000000000000000000010157937460000112040345610920852340000000000000000000000001120403456109886597710194104881023124203000011204034560000000000000000000000000000000000)
 (.leaf 11204034560000000000000000000010503837140000112040345600000000000000000000000000000000001120403456000000000000000000001070106334781811204034560000000000000000000010762634730000112040345600000000000000000000105202747100001120403456106659642400000000000000000000000011204034561065656884102503421110248253717819112040345610145963660992204554104972513878201120403456000000000010874368560000000000000011204034560000000000101683350700000000000000112040345600000000000000000000000000000000001120403456000000000011076323771082829218000011204034560000000000000000000010924918757821112040345600000000001114404815109512394478221120403456106453797811057524381091697477000011204034560000000000000000000010678750800000)))
 (.node 2 (.node 1 (.leaf 11204034560000000000000000000010579087920000112040345600000000000000000000000000000000001120403456108544993000000000000000000000000011204034560000000000000000000000000000000000112040345610704642690000000000103079758400001120403456000000000000000000001030939188000011204034560000000000000000000000000000000000112040345600000000000000000000000000000078231120403456000000000000000000001074072363000011204034561100138910102016210710313515370000112040345600000000000000000000000000000000001120403456000000000000000000000000000000000011204034560000000000000000000010414981700000112040345600000000000000000000103348111478241120403456000000000000000000000000000000000011204034560000000000000000000010523144067825)
 (.leaf 11204034561044491218106614174510656242800000112040345600000000001047676741105235232100001120403456109964209410255442380000000000782611204034560000000000110238525010961342797827112040345600000000000000000000109766286778281118961664000000000000000000001048025723782911204034560000000000000000000010570563450000112040345600000000000000000000102866277578301120403456000000000010828786961032218033000011204034560000000000000000000000000000000000112040345600000000000000000000103862721600001120403456000000000000000000001075671556000011204034560000000000102500736710228873400000112040345600000000000000000000000000000000001120403456000000000000000000001049856306783111204034560000000000110785113610581416457832))
 (.node 1 (.leaf 11204034560000000000110787252710739606020000112040345600000000001107768928106012102278331120403456000000000011014040981072416449783411204034561059660136111453150910466345420000112040345610716758941116921030104754640500001120403456000000000011138182941074402400783511204034560000000000000000000010832900537836112040345600000000000000000000000000000078371120403456000000000000000000001045111721000011204034560000000000000000000000000000000000112040345610686041371063407059000000000078381120403456000000000011026393201087194173783911204034561068228260111693320710512182107840112040345610738618271116923612000000000000001112014848000000000000000000001074861612000011163402241068305620000000000010741616980000)
 (.leaf 11204034561049263195000000000010435646910000112040345600000000000000000000000000000000001120403456000000000000000000001018060295000011204034560000000000000000000010611644170000112040345600000000000000000000000000000000001120403456000000000000000000001076460818000011204034560000000000000000000000000000000000112040345600000000000000000000000000000000001120403456105931710911169719391061965238000011204034561037819657111154118010740063207841112040345600000000001105101167106031484278421120403456000000000000000000000000000000784311204034560000000000000000000010336550517844112040345600000000000000000000103505286800001120403456110703116610587094381070609556000011204034561075158089000000000010722524427845))))))))))
 (.node 256 (.node 128 (.node 64 (.node 32 (.node 16 (.node 8 (.node 4 (.node 2 (.node 1 (.leaf 11200102401066173303105038793910752207577846112040345611022772131024819462000000000078471120403456000000000000000000001065306013000011204034561059055603105119324610472308327848112040345611040440130000000000000000000000001120403456000000000010359595340000000000000011204034560000000000000000000000000000007849112040345600000000001093200144104265486100001120403456000000000011079251131048820185785011204034560000000000108373915710892566497851112040345610724174560000000000102793564900001120403456000000000000000000001025364333000011204034560000000000000000000010451364130000112040345600000000000000000000105144086300001120403456000000000000000000001045368892000011204034560000000000000000000010682364060000)
 (.leaf 11204034560000000000000000000000000000000000112040345600000000000000000000101837765900001120403456000000000000000000000000000000000011204034561108373155108954931710537814690000112040345610502515071082291703104715677778521120403456000000000000000000001046230557000011204034560000000000000000000000000000000000112040345600000000000000000000104402233900001120403456000000000000000000000000000000000011204034560000000000000000000010678084810000112040345600000000001049179980000000000000001120403456000000000000000000001044879038785311204034560000000000000000000010810493737854112040345610593755440000000000107685966678551120403456000000000000000000001051836164785611204034560000000000000000000000000000000000))
 (.node 1 (.leaf 11204034560000000000000000000000000000000000112040345600000000000000000000104639418978571120403456108022899010116661251060003277000011204034560000000000000000000000000000007858112040345610522943680000000000102440756700001120403456106672359600000000001033496830000011204034560000000000000000000010466436680000112040345600000000000000000000000000000000001120403456000000000000000000000000000000000011204034560000000000000000000000000000000000112040345610858332031065972295107051954100001120403456000000000000000000000000000000000011204034560000000000000000000000000000000000112040345600000000000000000000000000000000001120403456000000000000000000000000000000000011204034561071989997000000000010406750327859)
 (.leaf 11204034560000000000110807136300000000000000112040345600000000001109317989107542229900001120403456000000000010975301341059151412000011204034560000000000000000000010454081247860112040345611020972521026295857103650079200001120403456110014865800000000000000000000000011204034561101668916000000000000000000000000112040345610604176270000000000103866576000001120403456000000000000000000000000000000000011204034560000000000000000000010325280520000112040345600000000000000000000000000000000001120403456000000000000000000001045662052786111204034560000000000000000000000000000000000112040345600000000000000000000000000000000001120403456000000000010836166840000000000000011204034561052469757000000000010835880317862)))
 (.node 2 (.node 1 (.leaf 11204034560000000000000000000010356810740000112040345600000000000000000000000000000000001120403456000000000000000000001022585836000011204034560000000000000000000010658448687863112040345600000000000000000000109175133578641120403456000000000000000000001053703391000011204034560000000000000000000010424606810000112040345600000000001074783270000000000000001120403456000000000010715054210000000000000011204034560000000000108396082610335570867865112040345600000000001108081430000000000000001120403456000000000000000000001039392559786611204034561074114610000000000010486115520000112040345600000000000000000000000000000000001120403456000000000000000000000000000000786711204034560000000000000000000000000000000000)
 (.leaf 11204034560000000000000000000000000000000000112040345600000000000000000000000000000000001120403456000000000000000000000000000000000011204034561058083732110385918110668595540000112040345600000000000000000000000000000000001120403456106443758300000000000000000000000011204034560000000000000000000010699622550000112040345610736703110000000000000000000000001120403456000000000000000000001041106882000011204034560000000000104221408000000000007868112040345600000000000000000000000000000000001120403456110544478310447440841065791901000011204034560000000000000000000000000000000000112040345600000000001107842538106021933478691120403456000000000000000000000000000000787011204034561056051290000000000010486519510000))
 (.node 1 (.leaf 11204034560000000000000000000000000000000000112040345600000000001041771161104577011900001120403456000000000000000000000000000000000011204034560000000000109593619310244649650000110677196810846753451090092689107426305900001120403456106874671000000000000000000000000011204034560000000000000000000010655922580000112040345600000000000000000000000000000000001120403456107539808310351273840000000000787111204034560000000000109093511510358711240000112040345610753822121082147419104290558478721120403456105997143700000000001065677497000011204034560000000000109177030600000000000000112040345610592407560000000000000000000078731120403456000000000010855706001035561227787411204034561050357673110522736310573813507875)
 (.leaf 11204034560000000000000000000010308706090000112040345600000000000000000000000000000078761120403456000000000000000000000000000000000011204034560000000000000000000000000000000000112040345600000000001085121810105286858678771120403456106421835500000000001034390228000011204034561056909109000000000010492605720000112040345600000000000000000000000000000078781120403456000000000000000000001058336771787911204034560000000000000000000010609311180000112040345600000000000000000000000000000000001120403456000000000000000000000000000000788011204034561067403014103209406300000000007881112040345610465751491067455401000000000078821120403456104854694200000000000000000000000011204034561061553109108392874010350394647883))))
 (.node 4 (.node 2 (.node 1 (.leaf 11204034561055800269109558397710468724507884112040345610490669350000000000000000000000001114898432000000000000000000001036763177788511204034560000000000000000000000000000000000112040345600000000001085163124105572158878861120403456000000000010799242281023452423788711204034561053762978000000000010463577507888111607808010698685771087363246107577152078891120403456000000000000000000000000000000000011204034560000000000109171882100000000007890112040345600000000001077677759000000000078911120403456000000000000000000000000000000000011204034560000000000000000000000000000007892112040345600000000000000000000000000000000001120403456000000000000000000000000000000000011204034560000000000000000000000000000007893)
 (.leaf 11204034560000000000000000000010586510060000112040345600000000000000000000105603739000001120403456000000000000000000001058146804000011204034560000000000000000000000000000000000112040345600000000000000000000000000000000001120403456000000000010872594371050507364789411204034560000000000000000000000000000000000112040345600000000000000000000102895608078951120403456000000000000000000000000000000000011204034560000000000000000000000000000000000112040345600000000000000000000000000000000001120403456000000000000000000000000000000000011204034560000000000000000000000000000000000112040345600000000000000000000000000000000001120403456000000000000000000001044714750789611204034560000000000000000000000000000000000))
 (.node 1 (.leaf 11204034560000000000000000000000000000000000112040345600000000000000000000104731383700001120403456000000000010168871941065476368000011204034561078210658105228040900000000007897112040345600000000001091041965104014085478981120403456000000000000000000000000000000789911204034561060787280000000000000000000000000112040345600000000000000000000000000000000001120403456000000000000000000000000000000000011204034561075979041104057662300000000007900112040345600000000000000000000000000000079011120403456000000000000000000001055501951790211148984320000000000000000000010704493470000112040345600000000000000000000000000000079031120403456000000000000000000000000000000000011204034560000000000103040292010567453430000)
 (.leaf 11204034560000000000000000000000000000000000112040345600000000000000000000000000000000001120403456000000000000000000000000000000790411204034560000000000000000000000000000000000112040345600000000001074875964000000000000001120403456108011418811043816871048859746000010994319361086633670103142297400000000000000112040345600000000000000000000000000000000001120403456000000000000000000000000000000790511204034560000000000000000000000000000000000112040345600000000001025087898000000000000001120403456000000000000000000000000000000790611204034560000000000106689839800000000007907111280128000000000000000000000103853926800001120403456000000000000000000000000000000000011204034560000000000000000000000000000000000)))
 (.node 2 (.node 1 (.leaf 11204034561013451757105247502510394068967908112040345600000000000000000000000000000000001120403456000000000000000000000000000000790911204034561065341472110892964900000000000000112040345600000000000000000000000000000079101102053376000000000000000000000000000000000011204034561109903618000000000000000000000000112040345600000000001016833507000000000000001120403456000000000000000000000000000000000011204034560000000000000000000000000000007911112040345600000000001103600760102126939100001120403456000000000000000000000000000000791211204034560000000000000000000000000000000000112040345600000000000000000000000000000000001120403456000000000010739087571025180126791311204034560000000000103848282700000000007914)
 (.leaf 11204034560000000000000000000010502516920000112040345600000000000000000000104434211679151120403456000000000000000000001017769076000011204034560000000000108526672310237150580000112040345600000000001081539455000000000079161120403456102442298310165650720000000000791711204034560000000000000000000000000000007918112040345600000000000000000000000000000079191120403456000000000000000000000000000000000011204034560000000000000000000000000000000000112040345600000000000000000000102647262600001120403456109260121310675141211060370300792011204034560000000000106230479600000000000000111201484800000000001103207334107442347600001107558400106049666500000000001050126909000011204034560000000000000000000010385778707921))
 (.node 1 (.leaf 11204034561116552448000000000000000000000000112040345600000000000000000000000000000000001120403456000000000000000000000000000000000011204034561061698803000000000000000000007922112001024000000000000000000000000000000000001120403456107538272811130622711046265126000011204034561118489785000000000000000000000000112040345600000000000000000000000000000000001120403456000000000000000000000000000000000011204034560000000000000000000000000000000000112040345600000000001045348064102452835479231120403456000000000000000000001024484949000011204034560000000000000000000010635802467924112040345610412679121107207913103025183079251120403456000000000000000000000000000000792611204034560000000000000000000000000000000000)
 (.leaf 11204034560000000000000000000000000000007927112040345600000000000000000000000000000000001120403456000000000010980193991027840681792811204034560000000000000000000000000000000000112040345610709545330000000000102363127200001120403456000000000000000000000000000000000011204034560000000000000000000000000000007929112040345600000000000000000000000000000079301110441984108105452211085619921077158117000011204034560000000000000000000000000000000000112040345600000000000000000000000000000079311120403456000000000000000000000000000000000011204034560000000000000000000000000000000000112040345600000000000000000000000000000000001120403456106211137100000000001051622833000011204034560000000000107129151200000000007932)))))
 (.node 8 (.node 4 (.node 2 (.node 1 (.leaf 11204034561067382043106235848310362631990000112040345600000000000000000000000000000079331120403456000000000011111468110000000000000011204034560000000000000000000000000000000000112040345600000000000000000000000000000000001120403456000000000000000000000000000000793411204034560000000000000000000000000000000000112040345600000000000000000000000000000000001120403456000000000010911216571068650611793511204034560000000000000000000000000000000000112040345600000000001084373755102897161479361120403456000000000000000000000000000000000011204034560000000000000000000000000000000000112040345600000000000000000000000000000000001120403456105551183500000000001026947734000011204034560000000000103473815200000000000000)
 (.leaf 11204034560000000000000000000000000000000000109943193600000000000000000000104018790000001120403456106016623811109203440000000000000011204034560000000000108272476500000000000000112040345600000000000000000000000000000000001120403456000000000000000000000000000000000011204034560000000000000000000000000000000000112040345600000000000000000000000000000000001120403456000000000000000000000000000000000011204034560000000000000000000000000000000000112040345600000000000000000000000000000000001120403456105325573600000000000000000000000011204034561108327581000000000000000000000000112040345600000000000000000000102583177679371120403456105029606700000000000000000000793811204034560000000000111008282110557368130000))
 (.node 1 (.leaf 11167334400000000000109514588210624228120000112040345600000000000000000000000000000000001120403456000000000000000000000000000000000011204034560000000000000000000000000000000000112040345600000000000000000000000000000000001120403456000000000000000000001066416083793911135877120000000000000000000010676100920000112040345600000000001086695932105175898100001120403456000000000000000000000000000000000011204034560000000000000000000000000000000000112040345610908671450000000000000000000000001120403456108995911110349529011036923567000011204034560000000000000000000000000000000000112040345600000000000000000000000000000000001120403456000000000000000000000000000000000011204034560000000000000000000010497664650000)
 (.leaf 11204034560000000000000000000000000000000000112040345600000000000000000000104221464600001117519872000000000000000000001064132650000011204034560000000000000000000000000000007940112040345600000000001087281037103253712979411120403456000000000000000000001043195273000011204034560000000000000000000000000000000000112040345600000000000000000000000000000000001120403456000000000000000000000000000000000011204034561080967985104310662810581308110000112040345600000000000000000000106203875500001120403456000000000010490424070000000000794211204034560000000000000000000000000000000000112040345600000000000000000000000000000000001120403456000000000000000000000000000000000011204034561104857036104980744810583771530000)))
 (.node 2 (.node 1 (.leaf 11204034560000000000000000000000000000000000111712665600000000000000000000000000000000001120403456000000000000000000000000000000000011204034560000000000000000000010368730610000112040345600000000000000000000000000000000001120403456000000000000000000000000000000000011204034560000000000000000000000000000000000112040345600000000000000000000000000000000001120403456000000000000000000001059650796000011204034560000000000106276449210746196580000112040345600000000000000000000000000000079431120403456000000000000000000000000000000794411204034560000000000000000000000000000000000112040345600000000001105353454106296377400001120403456000000000010803923120000000000000011204034560000000000000000000000000000000000)
 (.leaf 11204034560000000000000000000000000000000000112040345600000000000000000000000000000000001120403456000000000000000000000000000000000011204034560000000000000000000000000000000000112040345609773858430000000000000000000000001120403456099470852010653364391030838806000011204034561087881995104344217210438461990000112040345610547515930000000000105001533679451120403456106570051300000000000000000000794611204034560000000000000000000010484398407947112040345610577654521065699666000000000000001120403456000000000000000000000000000000000011204034560000000000000000000010221857260000112040345600000000001092997979106424180100001120403456103356643110911535331037184789000011204034560000000000103253698210417874520000))
 (.node 1 (.leaf 11204034561076859329000000000000000000000000112040345600000000000000000000000000000079481120403456000000000000000000000000000000000011204034560000000000000000000000000000000000112040345600000000000000000000000000000000001120403456000000000000000000000000000000000011204034560000000000000000000000000000000000112040345610926318761086836441105241621800001120403456097943024800000000001058512471000011204034560000000000000000000000000000000000112040345600000000000000000000000000000079491120403456000000000000000000000000000000000011204034560000000000000000000000000000000000112040345600000000000000000000000000000000001117519872000000000000000000001063994425000011204034560000000000000000000000000000000000)
 (.leaf 11204034561053642686000000000010703021357950112040345600000000000000000000000000000000001120403456106271112300000000001018780736795111204034560000000000106437510410739359440000112040345600000000000000000000103972341279521120403456106964966000000000001047786276795311120148481050350560000000000010780926587954112040345600000000000000000000000000000000001120403456000000000000000000000000000000000011204034560000000000000000000000000000000000112040345600000000000000000000000000000000001120403456000000000000000000000000000000000011204034560000000000000000000000000000000000112040345610785546490000000000000000000000001120403456106562878200000000000000000000000011204034560000000000000000000000000000000000))))
 (.node 4 (.node 2 (.node 1 (.leaf 11204034560000000000000000000000000000000000112040345600000000000000000000000000000000001120403456000000000000000000000000000000795511204034560000000000000000000000000000000000110048051210574345880000000000106994469500001120403456000000000010578403790000000000000011204034560000000000000000000000000000000000112040345600000000000000000000000000000000001120403456000000000000000000000000000000000011204034560000000000000000000000000000000000112040345600000000000000000000103779395600001120403456105568286200000000001042121938000011160780801063441805103358388010755418997956112040345600000000000000000000106580212879571120403456000000000000000000000000000000000011204034560000000000000000000000000000000000)
 (.leaf 11204034560000000000000000000000000000000000112040345600000000000000000000000000000079581120403456000000000000000000001060330138000011204034560000000000000000000000000000000000112040345600000000000000000000000000000000001120403456000000000000000000000000000000000011204034560000000000000000000000000000000000112040345600000000000000000000000000000000001120403456000000000000000000000000000000000011204034560000000000000000000000000000000000112040345600000000000000000000000000000000001120403456000000000000000000000000000000795911204034560000000000000000000000000000007960112040345600000000001003384891000000000000001120403456104449732500000000000000000000796111204034560000000000000000000000000000000000))
 (.node 1 (.leaf 11204034561074534728000000000000000000000000112040345600000000000000000000000000000000001119617024105728085900000000000000000000000011204034560000000000000000000010637860530000112040345610654220030000000000000000000000001120403456000000000000000000000000000000000011204034561070596289000000000010356877937962112040345600000000000000000000000000000000001120403456000000000000000000000000000000000011204034560000000000000000000000000000000000112040345600000000000000000000000000000000001120403456000000000000000000000000000000000011163402241057091209000000000010493654380000112040345600000000001065101558000000000000001120403456000000000000000000000000000000000011204034560000000000000000000000000000000000)
 (.leaf 11204034560000000000000000000000000000000000112040345600000000000000000000000000000000001120403456000000000000000000000000000000000011204034560000000000000000000010406040730000112040345600000000000000000000000000000000001120403456000000000000000000000000000000000011204034560000000000000000000000000000000000112040345600000000000000000000000000000000001120403456107606535900000000000000000000000011204034560000000000000000000000000000000000112040345600000000000000000000000000000000001120403456000000000000000000001053643961796311204034560000000000000000000010512747797964112040345610691259670000000000105480069600001120403456110481573900000000000000000000000011204034560000000000000000000000000000000000)))
 (.node 2 (.node 1 (.leaf 11204034560000000000000000000000000000000000112040345610991551940000000000000000000000001120403456000000000000000000000000000000000011204034560000000000000000000000000000000000112040345610632373910000000000000000000079651120403456108974368900000000000000000000000011204034560000000000000000000000000000000000112040345600000000000000000000000000000000001120403456000000000000000000000000000000000011204034561060120855000000000010366406710000112040345600000000000000000000000000000000001120403456000000000000000000000000000000000011204034560000000000000000000000000000000000112040345611003451511007263783101586957500001120403456000000000000000000000000000000000011204034560000000000000000000010388473057966)
 (.leaf 11204034560000000000000000000010311275630000111489843211004723921094257109108456419079671120403456000000000000000000000000000000000011204034560000000000000000000000000000000000112040345600000000000000000000000000000000001120403456000000000000000000000000000000000011204034560000000000000000000000000000000000112040345600000000000000000000000000000000001120403456106288132800000000000000000000000011204034560000000000000000000010521743890000112040345610913878430000000000000000000000001120403456000000000010709291240000000000000011204034561096337009104042898410568487040000111201484810674540511021611658106700917379681120403456000000000000000000000000000000000011204034560000000000000000000000000000000000))
 (.node 1 (.leaf 11204034560000000000000000000000000000000000112040345600000000000000000000000000000079691120403456000000000000000000000000000000000011204034560000000000108528538700000000000000112040345600000000000000000000104509121679701120403456000000000010704560061056585820000011204034560000000000102871177600000000000000112040345600000000000000000000000000000000001120403456000000000000000000000000000000000011204034561091594506104662984310524550600000112040345610689275011071889619000000000000001120403456000000000010683882140000000000000011204034560000000000000000000000000000000000112040345610321039950000000000106826108479711120403456000000000010901748970000000000000011204034561110538986107339537410784816797972)
 (.leaf 11204034560000000000000000000000000000000000112040345611075014751030939791103691107400001120403456111006299800000000000000000000000011204034561089415995110990870400000000000000112040345610877854931056696173106260998700001120403456107664464710216653461059110347000011204034561076306167102161165800000000007973112040345610719499420000000000000000000000001120403456106420894310683135560000000000797411204034560000000000000000000010372757187975112040345600000000000000000000000000000000001120403456000000000000000000000000000000000011181752321110435332105725317610674413337976112040345610788290621070798261000000000079771120403456110255791610337315191040716426000011204034560000000000000000000000000000000000))))))
 (.node 16 (.node 8 (.node 4 (.node 2 (.node 1 (.leaf 10936647680000000000000000000000000000000000112040345600000000000000000000106553387379781120403456000000000010242020611058730235000011204034560000000000000000000000000000000000112040345610942604441049753761105290696300001120403456000000000000000000000000000000000011204034561099829614104507962810220898050000112040345600000000001058477913000000000000001120403456000000000000000000000000000000000011204034560000000000000000000000000000000000112040345611130515491059143968106761204600001120403456111593051410975736501028356300000011204034560000000000109680986700000000000000112040345600000000000000000000000000000000001120403456000000000000000000000000000000797911204034561095226826102986604910421212420000)
 (.leaf 11204034561097372423105755181100000000000000112040345600000000000000000000000000000000001120403456111812509810927313261067493607000011204034561080141376000000000000000000007980112040345610828387140000000000000000000000001120403456000000000000000000000000000000798111204034560000000000000000000000000000000000112040345600000000001090859408105744391200001120403456104945391810418181370000000000000011204034560000000000000000000000000000000000112040345600000000000000000000000000000000001120403456000000000000000000000000000000000011204034561095921834106854424200000000000000112040345610763944230000000000000000000000001109131264000000000000000000001047012436000011135877121096618752106172598210757583930000))
 (.node 1 (.leaf 11204034560000000000108392370700000000000000112040345600000000000000000000000000000000001120403456109815887010811565151048936271000011204034560000000000000000000000000000000000112001024010730896680000000000000000000000001120403456000000000000000000000000000000000011204034560000000000000000000000000000000000112040345600000000000000000000000000000000001120403456000000000000000000000000000000000011204034561068914516000000000000000000000000112040345610694282511097383543000000000000001120403456107770151110872430790000000000000011204034561063568556000000000000000000000000112040345600000000000000000000000000000000001120403456000000000000000000000000000000000011204034561075586127000000000000000000000000)
 (.leaf 11204034561096882780000000000000000000000000112040345610722013150000000000000000000000001115684864109520580211099711211057621488000011204034561065964016106831523300000000000000112040345610781349461085949556102930181400001120403456000000000000000000000000000000000011204034561069411255000000000010508795580000112040345610701501070000000000106404118900001120403456107088200509934930441043192468000011204034560000000000000000000000000000000000112040345611034056121050257077104591599300001120403456109891046310811284131061969879000011204034560000000000105985867800000000000000112040345610572463140000000000102499912300001120403456107458404900000000000000000000000011204034561075025684000000000000000000000000)))
 (.node 2 (.node 1 (.leaf 11099176960000000000000000000010503848090000112040345611165415571030053954000000000000001120403456000000000000000000000000000000000011204034561071953331000000000000000000000000112040345610707881700000000000000000000000001120403456111968319410673933251078532534000011204034561084628276108304898510411506520000112040345610619489850000000000000000000000001120403456107376352500000000000000000000000011204034561103806648106586156610836398327982112040345611016078281086577862000000000000001120403456000000000000000000001048906895000011204034560000000000108480367200000000000000110519910410768548570000000000000000000000001120403456000000000000000000001070501104000011204034561071744740000000000000000000000000)
 (.leaf 11204034561067700944000000000000000000000000112040345610729823450000000000000000000000001120403456107348593000000000001049592365000011204034561065963487000000000000000000000000112040345610799222861081924911000000000000001120010240108896435800000000001072914902000011204034561067541863000000000000000000000000112040345610920541961088019235104868850900001120403456105175481300000000001069209037000011204034561087953024105699145210326397470000112040345610746627040000000000000000000000001120403456106165496400000000000000000000000011204034561120393468102390660710265918480000112040345611027776310000000000000000000000001120403456110602496200000000000000000000000011204034561102278597106291045310626491737983))
 (.node 1 (.leaf 11204034561069525173000000000000000000000000112040345610915764871051709984106564804600001120403456106973079400000000001061160948000011204034561060471063000000000010382052660000112040345610738037651013061989106979454500001120403456111620375810733316211060187988798411204034561068376772000000000010408368510000112040345610585701540000000000000000000000001120403456000000000000000000000000000000798511204034561075187940000000000010575784300000112040345610998148131065193832105353411779861120403456109689161210324832940000000000798711179130880000000000000000000010753569307988112040345611088222321046019152105767451100001120403456111388674910662969341051401314000011204034561058828154000000000000000000000000)
 (.leaf 11204034561062369237106499082800000000000000112040345610360411380000000000000000000000001120403456110965929810402545011057062136000011204034561103872851103579847210424345150000112040345609771281450000000000000000000000001120403456106553731200000000000000000000000011204034560000000000000000000000000000007989112040345610816483090000000000000000000000001120403456111332087710369393231033706311000011204034561074460724000000000000000000000000112040345611084194471076714747000000000079901120403456111004807010278527831043413677000011204034560000000000106593286900000000000000112040345611191471271060162345107591902800001120403456109090327900000000000000000000000011204034561105455821000000000000000000000000))))
 (.node 4 (.node 2 (.node 1 (.leaf 11204034561114517227105386417810640326077991112040345610620963220000000000000000000000001120403456000000000000000000001057125883000011204034561076277721000000000000000000000000112040345600000000000000000000000000000000001120403456110812483110740673021057626507799211204034561088346904101688719400000000000000111358771210781788940000000000104389127100001120403456109583486410254905510000000000000011204034561082811883104446893800000000000000112040345610758034291029221804102822959900001120403456000000000000000000000000000000000011204034561073269529109251951310223314410000112040345600000000000000000000000000000079931120403456111128804800000000000000000000000011204034561104885678102171903310273522890000)
 (.leaf 11204034561069613471000000000000000000000000112040345611087950920000000000000000000079941112014848000000000000000000001058719664000010936647680000000000000000000000000000000000112040345600000000000000000000000000000000001120403456106166417500000000000000000000000011204034561079011971000000000000000000000000112040345611118508710000000000000000000000001120403456000000000000000000001040976073000011204034561105517611000000000010219054160000112040345600000000000000000000000000000000001120403456000000000000000000000000000000000011204034560000000000000000000010408079940000112040345610836634041027960157000000000079951120403456106099041800000000000000000000000011204034561063625012000000000010599664360000))
 (.node 1 (.leaf 11204034560000000000000000000000000000000000112040345610656247470000000000000000000000001120403456109672597710188736171036461760000011204034560000000000000000000000000000000000112040345611025393320000000000000000000000001120403456000000000000000000000000000000000011204034560000000000000000000000000000000000112040345610662458901038388874105620288879961120403456106701294400000000000000000000000011204034561092741942104123429010367633707997112040345611022622500000000000000000000000001120403456000000000000000000000000000000000011204034560000000000000000000000000000000000112040345610374833070000000000000000000000001120403456106742486700000000000000000000000011204034561082131290000000000000000000000000)
 (.leaf 11204034561068097188000000000000000000000000112040345611081178600000000000104479281200001120403456000000000000000000000000000000000011204034561070681878000000000000000000000000112040345600000000000000000000106599953300001120403456106858240200000000000000000000000011204034560000000000000000000000000000000000112040345600000000000000000000000000000079981120403456106688860800000000000000000000000011193548800000000000000000000010571588900000112040345610723466730000000000000000000000001120403456109008547310250342111049420384000011204034561091199268103118138200000000000000112040345610715593770000000000000000000000001120403456110931119910858010770000000000000011204034561095433294103467104310346475170000)))
 (.node 2 (.node 1 (.leaf 11204034561063358590000000000010282194320000112040345610323192800000000000105416286300001120403456110743439400000000000000000000799911204034561101390163000000000000000000000000112040345611103056800000000000102740661400001120403456107485849910763343230000000000000011204034561057414724110383474900000000000000112040345611088599370000000000105385129400001120403456108196930800000000000000000000000011204034561065875348108066326400000000000000112001024010742014270000000000095882386980001120403456109896075510654589121036323804000011204034561063767383000000000000000000000000112040345600000000000000000000000000000000001120403456000000000000000000000000000000000011204034560000000000000000000000000000000000)
 (.leaf 11204034561070577037000000000010425752880000112040345600000000000000000000000000000000001120403456107525408000000000000000000000800111004805120000000000000000000010515471320000112040345610827329791080373019106521527300001120403456105551707000000000000000000000000011204034561099709787000000000000000000000000112040345600000000000000000000000000000000001120403456000000000000000000000000000000800211204034560000000000000000000000000000000000112040345611060183221054833902105713555180031120403456000000000000000000000000000000800411204034560000000000000000000010366614720000112040345611202688781042294610106317712900001120403456112040345600000000000000000000000011204034561120403456000000000000000000000000))
 (.node 1 (.leaf 11204034560000000000000000000000000000000000112040345600000000001058644007104198790500001120403456000000000000000000001016836954000011204034561120403456000000000000000000000000112040345600000000000000000000000000000080051120403456106939764910424221170000000000800611204034561075763067107407401300000000000000112040345610276893061070401480000000000000001120403456104980825310525152901018648939000011204034560000000000000000000010334463620000112040345600000000000000000000000000000000001120403456108666288510813175760000000000000011204034561018989581000000000000000000000000112040345600000000000000000000104989488700001120403456000000000000000000000000000000000011204034561011852956107071437500000000000000)
 (.leaf 11204034560000000000000000000000000000000000112040345611124200920000000000000000000000001117519872000000000000000000001070108594000011204034561089281303105658208710740604540000112040345600000000000000000000000000000000001120403456109223651300000000000000000000000011204034560000000000000000000000000000000000112040345600000000000000000000000000000000001120403456000000000000000000000000000000000011204034560000000000000000000000000000000000112040345600000000000000000000000000000000001120403456000000000000000000000000000000000011204034560000000000000000000000000000000000112040345600000000000000000000000000000000001120403456000000000000000000000000000000000011204034560000000000000000000000000000008007)))))
 (.node 8 (.node 4 (.node 2 (.node 1 (.leaf 10968104961032274854000000000000000000000000112040345600000000000000000000000000000000001120403456106112005600000000001059985571000011204034560000000000000000000000000000000000112040345600000000000000000000000000000000001120403456000000000000000000000000000000000011204034560000000000108773695800000000000000112040345600000000000000000000102294128100001105199104000000000000000000000000000000000011204034560000000000000000000000000000000000112040345600000000000000000000000000000000001120403456000000000000000000000000000000800811204034561007927356000000000010600603010000112040345600000000000000000000000000000000001120403456000000000000000000000000000000000011204034561052219676000000000010432622718009)
 (.leaf 11204034560000000000000000000000000000000000112040345600000000000000000000000000000000001120403456110837599600000000000000000000000011204034560000000000000000000000000000008010107793612800000000001058550055000000000000001120403456106821735510845815830000000000000011204034560000000000107762826600000000000000112040345611187287760000000000000000000000001120403456106715768900000000000000000000000011204034560000000000000000000000000000000000112040345600000000000000000000000000000000001120403456000000000000000000000000000000000011204034560000000000000000000000000000000000112040345600000000000000000000000000000000001120403456000000000000000000000000000000000011156848641055111195000000000000000000000000))
 (.node 1 (.leaf 11204034560000000000000000000010322729380000112040345600000000000000000000000000000000001120403456000000000000000000000000000000000011204034560000000000000000000000000000008011112040345600000000000000000000000000000000001120403456000000000000000000000000000000000011204034560000000000000000000000000000000000112040345600000000000000000000000000000000001120403456000000000000000000000000000000000011204034560000000000000000000000000000000000112040345600000000000000000000000000000000001120403456000000000000000000000000000000000011204034560000000000000000000000000000000000112040345611050499941076776822107417424600001120403456000000000000000000000000000000000011204034560000000000000000000000000000000000)
 (.leaf 11204034560000000000000000000000000000000000112040345610483070280000000000104034064200001120403456105331438900000000000000000000801211204034560000000000107497285200000000000000112040345600000000000000000000000000000000001116078080110195824210713519101060072521000011204034560000000000000000000000000000000000112040345600000000001015920827000000000000001120403456000000000000000000000000000000000011204034560000000000000000000000000000000000112040345600000000000000000000000000000000001120403456000000000000000000001053444400000011204034561074261133000000000000000000008013112040345600000000001067117340000000000000001120403456000000000000000000000000000000000011204034560000000000000000000010176128330000)))
 (.node 2 (.node 1 (.leaf 11204034560000000000000000000000000000000000112040345600000000000000000000000000000000001120403456000000000000000000000000000000000011204034560000000000000000000000000000000000112040345611074033870000000000000000000000001120403456000000000010682263140000000000000011204034560000000000000000000000000000000000112040345600000000000000000000000000000000001120403456000000000010686172230000000000000011204034560000000000108503163200000000000000112040345600000000000000000000000000000000001120403456111020159010705650580000000000000011204034560000000000000000000000000000000000112040345600000000001079912484000000000080141120403456000000000000000000000000000000000011204034560000000000000000000000000000000000)
 (.leaf 11204034560000000000000000000000000000000000112040345610835514160000000000104162499400001120403456110026743010981410340000000000000011204034560000000000109491980900000000000000112040345600000000001098613103000000000000001120403456110409641010175314401032689770000011204034560000000000000000000010423247458015112040345600000000000000000000000000000000001120403456000000000010836691120000000000000011204034561086815272105548485810545462978016112040345610625425790000000000000000000080171120403456000000000000000000000000000000000011204034560000000000000000000000000000000000112040345600000000000000000000104342790400001120403456000000000000000000000000000000000011204034560000000000000000000000000000000000))
 (.node 1 (.leaf 11204034561085347488000000000000000000000000112040345610679791271059122158107623354880181120403456000000000000000000000000000000000011204034560000000000000000000000000000000000112040345600000000000000000000102283976200001120403456000000000000000000001055471144801911175198720000000000000000000000000000000000112040345600000000000000000000000000000000001119354880000000000000000000001018581390802011204034560000000000000000000000000000000000112040345600000000000000000000000000000000001120403456000000000010690718860978026497000011204034560000000000105510233700000000000000112040345600000000000000000000106691465000001120403456000000000000000000000000000000000011204034561114000049000000000000000000000000)
 (.leaf 11204034560000000000000000000000000000008021112040345600000000000000000000105798174400001120403456110075564100000000000000000000000011204034560000000000102766487800000000000000112040345600000000000000000000000000000000001118961664109341943510372346021073402140802211204034561061166177000000000000000000008023112040345610424181580000000000000000000080241120403456000000000000000000001055452422000011204034560000000000000000000000000000000000112040345600000000000000000000000000000080251120403456108261882700000000001033327849000011204034560000000000000000000010687805590000111607808000000000000000000000108663653100001120403456000000000000000000001029851702000011193548800000000000000000000010795779890000))))
 (.node 4 (.node 2 (.node 1 (.leaf 11204034560000000000000000000000000000008026112040345600000000000000000000000000000080271120403456000000000010456701860000000000802811204034560000000000000000000000000000008029112040345600000000000000000000000000000000001120403456000000000000000000000000000000000011204034560000000000000000000000000000008030111712665600000000000000000000106481022300001120403456000000000000000000000000000000000011204034560000000000000000000010433565050000112001024000000000000000000000106071215800001120403456000000000000000000001062315883000011204034560000000000000000000010646463530000112040345600000000000000000000103711581400001120403456000000000000000000001052408765000011204034560000000000000000000000000000000000)
 (.leaf 11204034561069399629000000000010833000010000112040345600000000000000000000000000000000001120403456000000000000000000000000000000000011204034560000000000000000000000000000000000112040345600000000000000000000000000000000001120403456000000000000000000000000000000000011204034560000000000000000000000000000000000112040345600000000000000000000000000000000001120403456000000000000000000000000000000000011204034561091361503000000000010582610550000112040345600000000000000000000108341657700001120403456000000000000000000000000000000000011204034560000000000000000000000000000000000112040345600000000000000000000000000000000001120403456000000000000000000000000000000000011204034560000000000000000000000000000000000))
 (.node 1 (.leaf 11204034560000000000000000000000000000000000112040345600000000000000000000000000000000001120403456000000000000000000000000000000000011204034560000000000000000000000000000000000112040345600000000000000000000000000000000001120403456000000000000000000000000000000000011204034560000000000000000000000000000000000112040345600000000000000000000000000000000001120403456000000000000000000000000000000000011204034560000000000000000000000000000000000112040345600000000000000000000108358421600001120403456000000000000000000000000000000000011204034560000000000000000000000000000000000112040345600000000000000000000000000000000001120403456000000000000000000000000000000000011204034560000000000000000000000000000000000)
 (.leaf 11204034560000000000000000000000000000000000112040345600000000000000000000000000000000001120403456000000000000000000000000000000000011204034560000000000000000000000000000000000112040345600000000000000000000106847455000001120403456000000000000000000001076184111000011204034560000000000000000000000000000000000112040345600000000000000000000000000000000001120403456000000000000000000000000000000000011204034560000000000000000000010716049320000112040345600000000000000000000000000000000001120403456000000000000000000000000000000000011204034560000000000000000000000000000000000112040345600000000000000000000000000000000001120403456106283312700000000001093466278000011020533760000000000110112696010717872600000)))
 (.node 2 (.node 1 (.leaf 11204034560000000000000000000000000000000000112040345610747484440000000000104953104000001120403456108981559200000000001065749076000011204034560000000000000000000010499357870000112040345600000000000000000000107778699000001120403456108048244000000000001041528046000011204034560000000000000000000010740066388031111607808000000000001107806310103630017000001119354880000000000000000000001075412755000011204034560000000000000000000000000000000000112040345600000000000000000000104681999100001120403456000000000000000000001048246078000011204034560000000000000000000010432821930000112040345600000000000000000000107744244600001120403456000000000000000000001047254952000011204034561085510651110802470200000000000000)
 (.leaf 11167334401065683761108293301210976353428032112040345600000000000000000000108572714700001120403456000000000000000000001093696438000011204034560000000000000000000000000000000000112040345600000000000000000000105433742000001120403456000000000000000000001048835864000011196170241066034379111386325211007284620000112040345600000000000000000000104894705000001120403456000000000000000000000000000000000011204034560000000000108262032710831630500000112040345610249985091053199801108739662200001120403456000000000000000000001099508571000011204034560000000000000000000010730808810000111411200000000000001078582470107055094400001120403456000000000000000000001050549250000011204034560000000000000000000000000000000000))
 (.node 1 (.leaf 11051991040000000000000000000010612491660000112040345600000000000000000000000000000000001120403456108936992910429522771075411969000011204034560000000000000000000000000000000000112040345600000000000000000000000000000000001120403456000000000010479250441089333809000011204034561034728086108879832710926903460000112001024000000000000000000000106510606300001111228416000000000000000000001039136705000011204034560000000000000000000000000000000000112040345600000000000000000000000000000000001120403456000000000000000000000000000000000011204034560000000000000000000000000000000000112040345600000000000000000000000000000000001120403456000000000000000000000000000000000011204034560000000000000000000010921838048033)
 (.leaf 11204034560000000000000000000010462921360000112040345600000000001072867731000000000000001120403456108653576610680493151099491520000011204034560000000000105624318810490465580000112040345600000000001116502452000000000000001120403456000000000000000000001090810320000011204034560000000000000000000000000000000000112040345600000000000000000000000000000000001120403456106433900000000000001080302513803411204034560000000000105564927410880498200000112040345600000000000000000000105595676900001120403456000000000000000000001049293017803511204034561031635038000000000010507346030000112040345600000000000000000000105521996100001120403456000000000000000000001029942417000011112284160000000000107604365810784181978036)))))))
 (.node 32 (.node 16 (.node 8 (.node 4 (.node 2 (.node 1 (.leaf 11204034560000000000111182170010646648420000112040345600000000000000000000109060718800001120403456000000000000000000001057230790000011141120000000000000000000000000000000000000112040345600000000000000000000000000000000001120403456000000000000000000001047441892803711204034560000000000000000000010867602900000112040345609932181670000000000105679304600001120403456000000000000000000001048073962000011204034561101306678108562114210978216248038112040345610609154581098901357103145565500001120403456000000000000000000001070977774000011156848640000000000000000000010665086168039112040345600000000000000000000000000000000001120403456000000000000000000000000000000000011204034561118760486106536663810749599550000)
 (.leaf 11204034560000000000000000000010541173008040112040345610866229990000000000000000000000001120403456000000000000000000001062764366000011204034560000000000000000000010487132930000112040345600000000000000000000000000000000001120403456000000000000000000000000000000000011204034560000000000109319941010334582530000112040345600000000001056387472000000000000001120403456106736806711091248941055895374000011204034561051094529000000000010730417380000112040345600000000000000000000000000000000001120403456111712725310623937151074492536804111204034561120104847105220994510647964440000112040345600000000000000000000000000000000001120403456000000000010265374491077047905000011204034560000000000108074673110335814420000))
 (.node 1 (.leaf 11204034560000000000000000000000000000000000112040345600000000000000000000106684755300001120403456000000000000000000000000000000000011204034560000000000000000000010256096560000112040345610937999451096768763108817728100001120403456000000000010919879901031990828000011204034561052845231111695892310545287250000112040345610753399801116095460108590712400001120403456000000000000000000001057680761000011204034560000000000000000000010841177188042112040345600000000000000000000107552235980431120403456107304250810787959601044993119000011204034561100341505108911457710836109980000112040345610585656580000000000000000000000001120403456107314686210907408141074022216000011204034560000000000111629188510837716710000)
 (.leaf 11204034560000000000000000000010628360168044112040345600000000000000000000106764622080451120403456000000000011018312881058782442000011204034561100942535108283276810822919460000112040345611116949151057831990105926841800001120403456105939866300000000001069135967000011204034561077498712000000000000000000000000112040345610716114701109095036000000000000001120403456000000000000000000000000000000000011204034561074579133105791419800000000000000112040345600000000001101919211103278721300001120403456000000000000000000001091680553804611112284160000000000000000000010782293810000112040345600000000000000000000107342371200001120403456000000000000000000001077188734804711204034560000000000110344536110480465420000)))
 (.node 2 (.node 1 (.leaf 11204034560000000000000000000000000000000000112040345600000000000000000000000000000000001120403456000000000000000000000000000000000011204034561073200323108215538800000000000000112040345610635902330000000000000000000000001120403456000000000000000000001060022851804811204034560000000000000000000010826508438049112040345600000000000000000000000000000000001120403456000000000000000000001061976906000011204034561066563197000000000010420002920000112040345611179193631079686411105101793700001120403456000000000000000000000000000000000011204034560000000000104885450210613067200000112040345600000000001042240923107693858900001120403456103756101900000000001048906194000011204034561073888423106821960310799460160000)
 (.leaf 11204034561077731006107318230410690666378050112040345600000000001035154227109972254480511120403456000000000000000000001101642223805211204034561059093670000000000010902650720000112040345600000000000000000000107878833600001120403456000000000000000000001088222889000011204034560000000000000000000010875054460000112040345600000000001099923771108880377400001120403456106840639200000000000000000000000011204034561100497347111120770710762868220000112040345600000000001074914971000000000000001120403456000000000000000000000000000000000011204034560000000000110714866900000000000000112040345610677750830000000000000000000000001120403456106226516810514583260000000000000011204034561072899373105889566610406606640000))
 (.node 1 (.leaf 11204034561024985087108453901100000000000000112040345600000000000000000000104598990500001120403456105194570410577162271093739923805311204034560000000000000000000000000000000000112040345600000000000000000000107924803000001120403456000000000000000000001046466873805411204034561048345280110279608210721750700000112040345600000000001067318667107979876500001120403456109875181910998583920000000000000011204034561072048063108477116610852875198055112040345610660246230000000000000000000000001120403456107237066400000000001047470939000011204034560000000000110410260810814832930000112040345611078827981101201723103681513200001120403456109900089410682120541027382131000011204034561061879913105524662100000000000000)
 (.leaf 11204034561106747849107772725200000000000000112040345610775669911111684599107157846400001120403456106084767810330604311039026472000011204034561053747510000000000010659773110000112040345600000000001106510348108510674800001120403456104963766200000000001070766447000011204034561077148874104693183310572976330000112040345600000000000000000000104186209600001120403456000000000010807853190000000000000011204034561071002767111245619410672794030000112040345610709441141056283453104299277900001120403456000000000000000000000000000000000011204034561029967249111098682410879659210000112040345600000000000000000000108493376900001120403456000000000000000000001060524196805611204034560000000000000000000010635809530000))))
 (.node 4 (.node 2 (.node 1 (.leaf 11204034561074353471109157590000000000000000112040345600000000001016350324000000000000001120403456106384663900000000001050618612000011204034561032029638104186511410928571728057111817523200000000001112049556109907650700001120403456000000000000000000001075292837000011204034561075889392107254644710526831340000112040345610385947640000000000000000000000001120403456110395325910853298471021388724000011204034561071299103000000000010416867950000112040345610677712831039811582102969274200001120403456000000000010696188231086471773805811204034560000000000000000000010795797730000112040345600000000000000000000000000000080591120403456107076701400000000001055471585000011204034561083946163111082694210881432310000)
 (.leaf 11204034560000000000000000000000000000000000112040345600000000000000000000105584714400001120403456000000000011001026581051344682000011204034561065924749000000000010525839370000112040345600000000000000000000109767404480601120403456000000000000000000001080991035806111204034561062081055105347159210915732750000111856844810873827791111853472108927500700001120403456000000000000000000001067094576000011204034560000000000000000000010907708688062112040345600000000001098386191000000000000001120403456000000000000000000000000000000000011204034561050744422106840834710995072640000112040345600000000000000000000109536056980631120403456000000000000000000001058734920806411204034561067473487000000000010573911840000))
 (.node 1 (.leaf 11204034560000000000000000000000000000000000112040345600000000000000000000000000000000001120403456000000000000000000001094025884000011204034561076904224106458985310877407308065112040345600000000000000000000108643932500001120403456106993030110868240680000000000000011204034561103799929110342606710846376600000112040345610937700601109092152105390663700001120403456105771632811078541771067547025000011204034560000000000109148488310445933680000112040345600000000000000000000000000000000001120403456106636254210167261331056796677000011204034560000000000103350334900000000000000112040345610665297851033355710107406312800001120403456000000000011144465741057693541000011204034561078671452000000000010562834200000)
 (.leaf 11204034560000000000110304490910653470060000111712665600000000000000000000109035635380661120403456104512230900000000001087901459806711204034561112182216109306026410768051400000112040345600000000000000000000000000000000001120403456106606418410851092271067789226000011204034560000000000109549851810697355448068111673344000000000001074880578108846112300001120403456106752855811110462521023859031000011204034560000000000000000000010835947588069112040345600000000000000000000106458339480701120403456000000000010766690290000000000000011204034561066719813110819952610532228240000112040345611010176821096394106105359325700001120403456000000000000000000000000000000000011204034560000000000111701794500000000000000)))
 (.node 2 (.node 1 (.leaf 11204034561015101025106383655610990009550000112040345610697623101106672406109293120980711120403456000000000000000000001098983533000011204034560000000000108640296000000000000000112040345610905862081083465898103954617480721120403456111366627410507905931066728570807311204034560000000000000000000000000000000000112040345600000000000000000000000000000000001120403456106084573200000000000000000000000011204034560000000000000000000010638208700000112040345600000000001115778698102609552180741120403456105648008200000000001078786814000011204034561099711683107565694310521770558075112040345600000000000000000000000000000000001120403456000000000000000000000000000000000011204034560000000000000000000010523478400000)
 (.leaf 11204034560000000000000000000000000000000000112040345610791447171042804638103497661300001120403456000000000000000000000000000000000011204034561058633505000000000010807114770000112040345600000000000000000000000000000000001120403456000000000000000000001025056093000011204034561071670459000000000010828407860000112040345610410985961107133569105473894400001120403456000000000000000000000000000000000011204034560000000000000000000000000000008076112040345610600377240000000000106237376500001120403456000000000011167084581080706895000011204034560000000000000000000000000000000000112040345600000000000000000000104683027700001120403456000000000000000000001053032156000011204034561056767643000000000010504663510000))
 (.node 1 (.leaf 11204034560000000000000000000000000000000000112040345600000000000000000000103275019380771120403456000000000011155176421091240648000011204034560000000000000000000000000000000000112040345600000000000000000000103905348000001120403456000000000000000000001054205300000011204034560000000000000000000010528106170000112040345600000000000000000000000000000000001120403456106764563010758968571060393541000011204034561063975437110738389110742575988078112040345611052035091096214590109524158900001120403456000000000000000000001066149522000011204034560000000000108237118510745991740000112040345600000000000000000000000000000000001120403456106746559300000000000000000000000011204034561060282923108036966310703735168079)
 (.leaf 11204034561066701425000000000000000000000000112040345600000000001115126261109500045380801120403456000000000011161863191091153666000011204034561111179316108336880010927046038081111607808000000000000000000000107866090300001120403456000000000000000000001023316162000011204034561110900727105173011710721142640000112040345600000000000000000000103288940500001120403456106069914900000000001083114825808211204034561068868294102516842800000000000000112040345600000000001040563202000000000000001120403456106022193810672540750000000000000011196170240000000000103857677910421554770000112040345600000000001116885221107329650600001120403456104338244511049037731084875694808311204034560000000000000000000010468986390000)))))
 (.node 8 (.node 4 (.node 2 (.node 1 (.leaf 11204034561074217823000000000000000000000000112040345600000000000000000000108371581580841120403456107723269700000000000000000000000011204034560000000000000000000000000000008085112040345610930045120000000000000000000000001120403456000000000000000000001077810266000011204034561067463362000000000010679092080000112040345610730447641107858319104934269300001120403456000000000011074840561083603478808611204034560000000000000000000010322340410000112040345600000000000000000000000000000000001120403456000000000000000000001074634563000011204034560000000000000000000000000000000000112040345610606536661094009540108312620680871120403456111014166310937102761087898456808811204034560000000000000000000010109337870000)
 (.leaf 11204034560000000000000000000010260396070000112040345600000000000000000000101907620900001120403456000000000000000000001043329946000011204034561066860246110791850710549704030000112040345600000000001107987425106218284800001120403456000000000011069625991088399265808911204034560000000000111706585210539239140000112001024010569706480000000000000000000000001120403456000000000000000000001036093556000011204034560000000000000000000000000000000000112040345600000000000000000000000000000000001120403456000000000000000000001055558663000011204034560000000000000000000010836804600000112040345610637299870000000000106144347000001120403456000000000000000000000000000000000011204034560000000000102476577510500431408090))
 (.node 1 (.leaf 11204034560000000000110914948310569706110000112040345600000000001110298067105009443580911120403456000000000011122444861093659630809211204034561026886415000000000010638385350000112040345611144855581046488914105161029400001120403456110723659710159745141024360362000011204034560000000000000000000010666485710000112040345600000000000000000000000000000000001120403456106104486000000000000000000000000011204034560000000000109349080900000000000000112040345600000000001086337319108667520180931120403456000000000011135508811092546708809411204034561067989001110332430310921289408095112040345600000000000000000000106548234200001120403456000000000000000000000000000000000011204034560000000000000000000000000000000000)
 (.leaf 11204034560000000000000000000010465079620000112040345600000000000000000000000000000000001120403456000000000000000000000000000000000011204034560000000000000000000000000000000000112040345610870737251023168584102306449380961120403456000000000011080202451000372854000011204034560000000000000000000010620615850000112040345610951650141060751226102107196600001120403456109339454910210747881022103823000011204034561034728086000000000010566784460000112040345600000000000000000000000000000000001120403456104096719700000000000000000000000011204034560000000000000000000000000000008097112040345600000000001078087123108659497200001112801280106724704511096629710000000000000011204034560000000000000000000010994534490000)))
 (.node 2 (.node 1 (.leaf 11204034561037194605000000000010829813090000112040345600000000000000000000106360049800001120403456000000000000000000001035765934809811204034561076399222000000000010219668800000112040345600000000000000000000105087310500001120403456000000000000000000000000000000000011204034560000000000000000000000000000000000112040345600000000000000000000107382296400001120403456000000000000000000000000000000000011204034560000000000000000000000000000000000112040345600000000000000000000103254266580991120403456000000000011080339551050934626000011204034560000000000110552211810864325348100112040345610699099081116957730000000000000001120403456106127761100000000001043029446000011204034560000000000000000000010296683640000)
 (.leaf 11204034560000000000000000000010488353570000112040345600000000001036040064105305843100001120403456000000000000000000000000000000810111204034560000000000110797054310570205430000112040345600000000001104681579110035036481021120403456000000000011170930361043870590000011204034560000000000000000000010821621608103112040345600000000000000000000104629356200001120403456104811563300000000000000000000000011204034561058419478110700674410605542108104112040345600000000000000000000107217716200001120403456000000000000000000001058073538000011204034560000000000000000000010641804560000112040345611026364421046307720106784039981051120403456105973066800000000000000000000000011204034560000000000000000000010353285428106))
 (.node 1 (.leaf 11204034560000000000000000000000000000000000112040345611041756630000000000000000000000001120403456000000000000000000001067696283000011204034560000000000110168328110240837570000112040345610490373061103273761108201629281071120403456104607525510925633441059784072810811204034560000000000000000000000000000008109112040345600000000000000000000000000000000001120403456000000000000000000000000000000811011204034560000000000000000000010691885720000112040345600000000000000000000108619159281111120403456000000000000000000001040861117000011204034560000000000000000000000000000000000112040345600000000001025222115000000000000001120403456106886360500000000000000000000811211204034561105778599105108251610521656210000)
 (.leaf 11204034561059983601108316013410585811340000112040345600000000001108074955000000000000001120403456000000000000000000001060041710000011204034560000000000000000000000000000000000112040345600000000000000000000000000000000001120403456000000000000000000001059715953000011204034560000000000106969516000000000008113112040345600000000001099562956108073865381141120403456105880847400000000001040247595000011204034560000000000000000000010602588440000112040345600000000000000000000108363569300001120403456000000000000000000001051011646000011204034561066045956108452810610487513850000112040345610670114340000000000108331708500001120403456000000000000000000001048081065811511201042580000000000000000000010419323180000))))
 (.node 4 (.node 2 (.node 1 (.leaf 11204034560000000000000000000000000000000000112040345600000000000000000000106986345100001120403456000000000000000000001043896820000011204034560000000000000000000000000000000000112040345611080260160000000000000000000000001120403456107788770110319061581066856603000011204034560000000000000000000010432293570000112040345600000000000000000000104193898081161120403456110696357210403551641059299562000011204034560000000000110801762410450774480000112040345610712185311107422950107530452081171120403456106510375610978451261057627912000011204034560000000000000000000000000000008118112040345600000000000000000000102489821000001120403456000000000000000000001034406230000011204034560000000000000000000000000000000000)
 (.leaf 11204034560000000000000000000000000000000000112040345600000000001076112864000000000000001120403456000000000010816619280000000000000011204034560000000000000000000010506840470000112040345600000000000000000000000000000000001120403456000000000000000000000000000000000011204034561050448304000000000000000000000000112040345600000000001088678160000000000000001120403456000000000000000000001054025609811911204034561069380897000000000010279840820000112040345600000000000000000000103216898000001120403456107192562300000000001053554700000011204034560000000000000000000010518561900000112040345600000000000000000000104644449181201120403456000000000000000000000000000000000011204034560000000000000000000000000000000000))
 (.node 1 (.leaf 11204034560000000000110802305010544515210000112040345600000000001107647293108215806781211120403456000000000000000000000000000000000011204034560000000000000000000010463685870000112040345600000000000000000000000000000000001120403456000000000000000000001025930071000011204034561039664211108603428010679212760000112040345610469475360000000000103820754600001120403456103595389600000000001057513998000011204034560000000000000000000000000000000000112040345600000000000000000000103305720100001120403456000000000010541091261034580793000011204034561069729251108880545700000000000000112040345600000000001060737804000000000081221120403456106018460900000000000000000000000011204034560000000000000000000000000000000000)
 (.leaf 11204034561091802924106229137400000000008123112040345600000000001094078012000000000000001120403456106932034010822262721050510234000011204034561076753418000000000000000000000000112040345610501222221056263320000000000081241120403456106667991600000000000000000000812511204034560000000000109482721910679100928126112040345600000000000000000000000000000000001120403456106666437211078528401058109587812711204034560000000000000000000000000000000000112040345600000000000000000000000000000000001120403456000000000000000000001051318171812811204034560000000000000000000000000000000000112040345600000000000000000000000000000000001120403456000000000010807316320000000000812911204034561064536652108129241000000000000000)))
 (.node 2 (.node 1 (.leaf 11204034561062831701105732364010238913938130112040345600000000000000000000105724285081311120403456000000000000000000000000000000813211204034560000000000000000000010590451530000112040345600000000001016887194103226224000001120403456000000000000000000000000000000000011204034560000000000000000000010576437308133112040345600000000001081738265101723948100001120403456105998584910884208391032507305813411204034561076030169000000000000000000000000112040345600000000000000000000000000000000001120403456105763556210222022160000000000000011204034560000000000108543680200000000008135112040345600000000001082870307000000000000001120403456106631681500000000001026608716000011204034560000000000000000000000000000000000)
 (.leaf 11204034560000000000000000000000000000000000112040345600000000000000000000000000000000001120403456000000000000000000001029195047813611204034560000000000000000000000000000008137112040345600000000000000000000000000000081381120403456000000000000000000001012284815813911204034560000000000000000000000000000000000112040345600000000000000000000000000000000001120403456000000000000000000001022759841000011204034561041431053104937795100000000008140112040345600000000000000000000106450327781411120403456000000000000000000000000000000814211204034560000000000000000000010387363128143112040345600000000000000000000000000000000001120403456105963565800000000000000000000000011204034560000000000106200951700000000008144))
 (.node 1 (.leaf 11204034561066206363000000000000000000000000112040345600000000000000000000000000000081451120403456000000000000000000001035024879000011204034560000000000000000000000000000000000112040345600000000000000000000105724930181461120403456000000000000000000000000000000000011204034560000000000108880105310244452978147112040345600000000000000000000101031072800001120403456000000000000000000000000000000000011204034560000000000000000000000000000000000112040345600000000000000000000000000000000001120403456000000000000000000000000000000814811204034560000000000000000000000000000000000112040345600000000000000000000000000000000001120403456000000000000000000000000000000000011204034560000000000000000000010822328820000)
 (.leaf 11204034560000000000000000000000000000008149112040345600000000001068935990000000000000001120403456105651867011051263851069154257815011204034560000000000000000000000000000008151112040345610631782850000000000000000000000001120403456103788904800000000000000000000815211204034560000000000000000000000000000008153112040345610758793421044764217000000000081541120403456000000000000000000000000000000000011204034560000000000000000000000000000008155112040345600000000000000000000000000000081561120403456000000000000000000000000000000815711204034561097258398000000000000000000000000112040345600000000000000000000104968856481581120403456000000000000000000001032582301815911204034560000000000000000000000000000000000))))))
 (.node 16 (.node 8 (.node 4 (.node 2 (.node 1 (.leaf 11204034560000000000000000000000000000000000111935488010493819441112205663108201433400001120403456000000000000000000000000000000816011204034560000000000109774509200000000000000112040345600000000001103250063105858355900001120403456000000000000000000000000000000816111004805121069793390101359886010211062850000112040345600000000000000000000000000000000001120403456106919725410499148220000000000000011204034561059944527000000000000000000000000112040345611204034560000000000000000000000001120403456000000000000000000000000000000000011204034560000000000000000000000000000000000112040345600000000000000000000103677475500001120403456000000000010753583091042462587000011204034560000000000000000000010495158448162)
 (.leaf 11204034560000000000000000000000000000000000112040345610660482630000000000000000000081631120403456107232128010278527831056373767000011204034560000000000108028829400000000000000112040345611189221361025195272000000000000001120403456000000000000000000000000000000000011204034560000000000000000000010158387850000112040345600000000000000000000000000000000001120403456000000000000000000000000000000000011204034560000000000000000000000000000008164112040345610708745471103861540104580108181651120403456000000000000000000000000000000000011204034560000000000105000877410245235498166112040345600000000000000000000000000000081671120403456000000000000000000000000000000000011204034561074446379000000000000000000000000))
 (.node 1 (.leaf 11204034560000000000000000000010589383240000112040345600000000001011880873000000000000001120403456000000000000000000000000000000000011204034560000000000109781671010586630668168112040345600000000000000000000000000000000001120403456107529573800000000001025965985816911204034560000000000000000000000000000000000112040345600000000000000000000000000000000001120403456000000000000000000000000000000000011204034560000000000000000000000000000008170112040345610545382530000000000106871662681711120403456000000000010656887601027634490817211204034560000000000000000000000000000000000112040345600000000000000000000102797345400001120403456000000000000000000000000000000000011204034560000000000109063050410685241228173)
 (.leaf 11204034561052129918108702958910289775040000110048051200000000001098461916107971905500001120403456000000000000000000000000000000000011204034560000000000000000000000000000000000112040345600000000000000000000000000000000001120403456000000000000000000000000000000000011181752321080775101103330202300000000000000112040345600000000001025061054000000000000001120403456000000000000000000000000000000000011204034560000000000107558018700000000008174112040345600000000000000000000000000000000001120403456109278791100000000000000000000000011204034560000000000000000000000000000000000112040345600000000000000000000000000000000001120403456000000000011106313571059483249000011204034560000000000106614845600000000000000)))
 (.node 2 (.node 1 (.leaf 11204034560000000000000000000000000000000000112040345600000000000000000000000000000000001120403456000000000000000000000000000000000011141120001114111999000000000000000000000000112040345610640479650000000000103417082600001120403456000000000010299465791029431761000011204034560000000000000000000000000000000000112040345600000000000000000000000000000000001120403456102163581800000000000000000000000011204034560000000000000000000010719021038175112040345600000000000000000000000000000000001120403456000000000000000000000000000000000011204034560000000000000000000000000000000000112040345600000000000000000000104734635400001120403456000000000000000000000000000000817611204034560000000000000000000000000000000000)
 (.leaf 11204034560000000000000000000010604767380000112040345600000000000000000000000000000000001120403456000000000000000000000000000000000011175198720000000000110122830410593489280000112040345600000000000000000000000000000000001114112000000000000000000000000000000000000011204034560000000000108558968400000000000000112040345610088786911026644823101685431100001120403456000000000000000000001058055555000011185684480000000000109929551610836255440000112040345600000000001077096009000000000000001120403456000000000000000000000000000000000011204034561082133303000000000010450357230000112040345610662999040000000000000000000081771120403456000000000000000000000000000000000011204034560000000000000000000000000000000000))
 (.node 1 (.leaf 11204034560000000000000000000000000000000000112040345600000000000000000000000000000000001120403456000000000000000000000000000000000011204034560000000000000000000010234741048178112040345610675139540000000000000000000000001120010240106762742610516730740000000000000011204034560000000000000000000000000000000000112040345600000000000000000000000000000000001120403456000000000000000000000000000000000011181752321106375047000000000000000000000000112040345610606629940000000000107503298500001120403456106686788000000000001031886315817911204034561049017174000000000000000000000000112040345600000000000000000000000000000000001120403456000000000000000000000000000000000011204034560000000000000000000000000000000000)
 (.leaf 11204034560000000000107669461400000000000000112040345600000000000000000000000000000000001120403456108574952510365635131054585255818011204034561066210297000000000010317224810000112040345600000000001039046541104702462300001109131264106660764810686843320000000000000011141120000000000000000000000010721864958181112040345600000000000000000000000000000000001120403456000000000010690626581048927835000011204034560000000000000000000000000000000000112040345600000000000000000000000000000000001120403456000000000000000000000000000000000011204034560000000000102511474100000000000000112040345610665601690000000000000000000000001120403456105251710200000000001058941142000011204034561053970848109752101110662933310000))))
 (.node 4 (.node 2 (.node 1 (.leaf 11204034561052696719000000000010014384230000112040345600000000000000000000104226383500001120403456000000000000000000000000000000000011204034561055923649000000000010635667808182112040345600000000000000000000000000000081831120403456000000000000000000000000000000000011204034560000000000000000000000000000000000112040345600000000000000000000000000000000001120403456000000000000000000000000000000000011128012801108727274000000000000000000000000112040345600000000001060419037107785661000001120403456106611513600000000001038287249818411204034560000000000000000000000000000000000112040345600000000000000000000000000000000001120403456000000000000000000000000000000000011204034560000000000000000000000000000000000)
 (.leaf 11204034560000000000000000000000000000000000112040345600000000000000000000000000000000001120403456000000000000000000000000000000000011204034560000000000000000000000000000000000112040345600000000000000000000000000000000001120403456000000000010910272851052187560818511204034560000000000000000000010454690770000109681049600000000000000000000000000000000001120403456000000000000000000000000000000000011204034561075208329000000000010906571260000112040345600000000000000000000000000000000001120403456000000000000000000000000000000000011204034560000000000000000000000000000000000111961702410712899181069919974106661026200001120403456000000000000000000000000000000818610779361280000000000000000000010594734470000))
 (.node 1 (.leaf 11204034560000000000000000000000000000000000112040345611088288180000000000000000000000001120403456000000000000000000001040853818818711204034560000000000107992758400000000000000112040345610821843430000000000000000000000001120403456000000000000000000000000000000000011204034560000000000000000000000000000000000112040345600000000000000000000104271041000001120403456000000000000000000000000000000818811204034560000000000000000000010601395948189112040345600000000000000000000000000000000001107558400000000000000000000001022995264000011204034560000000000000000000000000000000000112040345600000000000000000000000000000000001120403456107735939000000000000000000000000011204034560000000000000000000000000000000000)
 (.leaf 11204034560000000000000000000000000000000000112040345600000000001081632149104521957700001120403456000000000000000000000000000000000011204034560000000000000000000000000000000000112040345600000000000000000000000000000000001120403456000000000000000000000000000000000011204034560000000000000000000000000000000000112040345600000000000000000000000000000000001120403456000000000000000000000000000000000011204034560000000000000000000010249548920000112040345600000000000000000000000000000000001120403456000000000000000000000000000000000011204034561074243215000000000010674300410000112040345610754825270000000000108281912700001120403456108092514000000000000000000000000011204034560000000000000000000000000000000000)))
 (.node 2 (.node 1 (.leaf 11204034560000000000000000000000000000000000112040345610691732200000000000105549807481901120403456107581194400000000000000000000000011204034561107135809000000000000000000000000112040345610948883130000000000000000000000001120403456000000000000000000000000000000000011204034560000000000000000000010374881618191112040345610931731550000000000000000000000001120403456108549618100000000000000000000000011204034561069337117000000000010150762910000112040345610751713940000000000000000000000001120403456000000000000000000000000000000000011204034560000000000000000000000000000000000112040345610614122310000000000103130040400001120403456000000000000000000000000000000000011204034560000000000000000000010743939758192)
 (.leaf 11204034560000000000000000000000000000000000112040345600000000000000000000000000000000001120403456000000000000000000000000000000000011204034560000000000000000000010593494420000112040345600000000001036711153000000000000001120403456109253840710158671401059098436000011204034560000000000000000000000000000000000112040345600000000000000000000000000000000001120403456110758715010216116581050210727000011204034560000000000000000000000000000000000112040345600000000000000000000105968253200001120403456000000000000000000001060462610000011204034561076442553000000000000000000000000112040345600000000000000000000000000000081931120403456106470365300000000000000000000000011204034560000000000000000000000000000000000))
 (.node 1 (.leaf 11204034561087960861103382547209847753490000112040345610450429870000000000000000000081941120403456110544438710375030371045973663000011204034560000000000110003706900000000000000112040345610939095481050646308101937571000001120403456108629672210329530561040893495000011204034560000000000109522903400000000000000112040345611158459511061016306106831164181951117126656101565078110826788371073509127000011204034560000000000000000000000000000000000112040345600000000001059112092000000000000001120403456000000000000000000001018633995000011204034560000000000000000000000000000000000112040345600000000000000000000101902102900001120403456107216961410407041301063785804819611204034560000000000000000000000000000000000)
 (.leaf 11204034561081764437102653744910466447598197112040345610573965210000000000106285812700001120403456110243833310510758051049062589000011204034561098365580107695466110555579660000112040345611146994231051696562105999139000001120403456000000000000000000000000000000000011204034560000000000109473452500000000000000112040345600000000000000000000000000000000001113587712109064530510552600431053890737000011204034561113388224108097909600000000000000112040345600000000000000000000000000000000001120403456000000000010872346900000000000000011204034560000000000000000000000000000000000112040345610974252651063675494103223913900001120403456000000000010953724790000000000000011204034561049125051110279330410394383080000)))))
 (.node 8 (.node 4 (.node 2 (.node 1 (.leaf 11204034561072894373107045349000000000000000112040345611200768711031020321000000000000001120403456109870081810574813460000000000000011204034561064923300000000000000000000008198112040345610841264840000000000000000000000001120403456000000000000000000000000000000000011204034561098989086101413573110509196090000112040345610720486931027664878000000000000001120403456000000000000000000000000000000819911204034560000000000000000000000000000000000112040345600000000000000000000000000000000001120403456000000000000000000000000000000000011204034560000000000000000000000000000000000112040345610810321951096213751103863769900001120403456000000000000000000000000000000000011204034560000000000000000000000000000000000)
 (.leaf 11204034561069595234000000000010194209858200112040345610837680541078093414000000000000001120403456000000000000000000000000000000000011204034560000000000000000000000000000000000112040345610741238201082256890000000000000001120403456108240404300000000000000000000000011204034561084472271106660479600000000000000111201484810797473120000000000103006806600001120403456106802270600000000000000000000000011204034560000000000000000000000000000000000112040345600000000000000000000000000000000001120403456108442011100000000000000000000000011204034561070036777000000000000000000000000112040345610706062380000000000000000000000001100480512101493459510664730951056723525000011204034561072583986103241618600000000000000))
 (.node 1 (.leaf 11204034561101289951104922695610585920060000112040345611021399751087094600106254221300001120403456000000000000000000000000000000000011099176961080697343000000000010430583770000112040345611179659940000000000000000000000001120403456106564337000000000000000000000000011204034561112665213000000000000000000000000112040345610755277210000000000105570253300001120403456000000000000000000000000000000000011204034561074136000000000000000000000000000112040345611002552971055991529000000000000001120403456106146021400000000000000000000000011204034561065241530000000000000000000000000112040345611042567050000000000000000000000001120403456109240993600000000000000000000000011204034560000000000109199029700000000000000)
 (.leaf 11204034561066826650000000000000000000000000112040345610700657600000000000103298693800001120403456105514119300000000000000000000000011204034561076422760000000000000000000000000112040345610993045300000000000099780378300001100480512106589807300000000001063180179000011204034561071198591000000000000000000000000112040345611138934861063323173108614479582011120403456106956415500000000001023888481000011204034561091629155105405543900000000000000112040345610883143151099892890000000000000001120403456107241652500000000001049102055000011204034561064469023000000000000000000000000112001024010586350151069910747107678512400001120403456106917489000000000000999174568000011204034561084516519106998121100000000000000)))
 (.node 2 (.node 1 (.leaf 11163402241099968732110568989000000000000000112040345611143036141068899919105099896382021120403456109958451810658431111057478921820311204034561115831398000000000000000000000000112040345611075366160000000000104516925400001120403456107013349800000000000000000000000011204034561054724514000000000010498534450000112001024011047757981057603820000000000000001120403456111679064110765222281076827438820411204034561075088728000000000000000000000000112040345611202208811041408773105826114900001120403456112006388210607071991072631744000011204034561071679267000000000000000000000000112040345610960344810000000000000000000000001120403456109662343800000000000000000000000011204034561073050569000000000000000000000000)
 (.leaf 11204034561074984487106179309110403466428205112040345611181442491059707683107451828200001120403456110124195100000000001041185257000011196170241107952852000000000010449872700000112040345610854413090000000000000000000000001120403456107015612200000000000000000000000011193548801108489730105348501310710638530000112040345611004636741043079784105413810600001120403456108468701800000000000000000000000011204034561075937748105840912600000000000000112040345610739462461081048302104698929900001120403456109911854310237457201030038211000011204034561078472269000000000010105347860000111568486410965507661016887194000000000000001120403456107229123200000000000000000000000011204034561061686488107741855110165296310000))
 (.node 1 (.leaf 11204034561072500805106254806510229342390000112040345600000000000000000000000000000082061120403456000000000000000000001023154368000011204034561106524333104225434510527174120000112040345611059816130987681417000000000082071120403456111065715010274232861032960730000011204034560000000000000000000000000000000000112040345600000000000000000000000000000000001120403456000000000000000000001014911802000011204034561032612278108147360400000000008208112040345611121359611034080485105814390500001120403456111703544010699937941078274638820911204034561070891920000000000000000000000000112040345610980413301039838426105763626700001120403456110020865200000000000000000000000011204034560000000000000000000000000000000000)
 (.leaf 11204034561109823460103273830810378092250000112040345600000000000000000000000000000000001120403456000000000000000000000000000000000011204034561092598305104879410400000000008210112040345611004517140000000000000000000000001120403456107158209300000000000000000000000011204034561109652079107416125410803104698211112040345610995749180000000000000000000000001120403456000000000000000000000000000000000011204034561076911397000000000000000000000000112040345610486321030000000000000000000000001120403456000000000000000000000000000000000011204034561060084315000000000000000000000000112040345610668287130000000000000000000000001120403456108864732810737573431066895647000011204034561073908464000000000000000000000000))))
 (.node 4 (.node 2 (.node 1 (.leaf 11204034560000000000000000000000000000000000112040345610595288540000000000000000000000001120403456107252972000000000000000000000000011204034561113677971105191802110761706050000112040345610573967221056679395103408494300001120403456107821307810232222710000000000821211204034561059211396000000000010268719520000112040345610895725221078421828000000000000001120403456110902323800000000000000000000821311204034561111753842102043054210405133310000112040345610667644320000000000000000000082141120403456105607732800000000000000000000000011204034561080187928108390147700000000000000112040345611085108851024658401105427201600001120403456109063347600000000000000000000000011204034561096327462108829752710316671300000)
 (.leaf 11204034561069786126000000000000000000000000112040345600000000000000000000000000000000001086324736105917928400000000001017902326000011204034561056741404000000000010389609310000112040345610571123820000000000103641277300001120403456109317436900000000000000000000000011204034561105473376103952972510543367110000111489843200000000000000000000102366179700001120403456000000000000000000000000000000000011128012801088846173102922180409835580450000112040345600000000000000000000000000000000001120403456000000000000000000000000000000000011204034560000000000000000000000000000000000112040345600000000000000000000102024991582151120403456106560672800000000000000000000000011204034561109421838107518718110572478930000))
 (.node 1 (.leaf 11204034560000000000000000000000000000000000112040345610956019000000000000000000000000001120403456000000000000000000000000000000000011204034561120236354104098335210665110640000112040345611203830821029517083103702142600001120403456000000000000000000000000000000000010994319360000000000000000000010412896260000112040345611014316810000000000000000000000001118568448106569339900000000001061559628000011204034560000000000108599904810276784490000112040345611204034560000000000000000000000001120403456000000000000000000000000000000821611204034560000000000000000000010360156350000112040345611076428941082114913000000000000001120403456000000000000000000000000000000000011204034561069307497000000000010837322270000)
 (.leaf 11204034560000000000000000000000000000000000112040345600000000000000000000104348555000001120403456000000000000000000000000000000000011204034561115178474000000000000000000000000108632473600000000000000000000106581307200001120403456000000000000000000000000000000000011204034560000000000000000000000000000000000112040345600000000000000000000000000000000001120403456000000000000000000000000000000821711204034560000000000000000000000000000000000112040345600000000000000000000000000000000001120403456000000000010922353490000000000000011204034560000000000000000000000000000000000112040345600000000000000000000000000000082181120403456000000000000000000000000000000000011204034561103339878109536786500000000000000)))
 (.node 2 (.node 1 (.leaf 11204034560000000000000000000000000000000000112040345610764670811052485091105097742400001120403456000000000010723753200000000000000011204034560000000000000000000000000000000000112040345610913442990000000000000000000000001120403456000000000000000000000000000000821911204034561018431772000000000010260532610000112040345610539633990000000000105730124600001120403456000000000000000000000000000000000011204034560000000000000000000000000000000000112040345600000000000000000000000000000082201120403456000000000000000000000000000000000011204034560000000000106195247400000000000000112040345600000000000000000000000000000000001120403456000000000000000000001055070848000011204034561116097734000000000000000000000000)
 (.leaf 11204034561071941914000000000000000000000000112040345600000000000000000000000000000000001120403456110575637500000000000000000000000011204034560000000000000000000000000000000000112040345600000000000000000000000000000000001120403456000000000000000000000000000000000011204034561060668598000000000000000000000000112040345600000000000000000000000000000000001120403456000000000000000000000000000000000011204034561090570650104500580800000000000000112040345600000000000000000000000000000000001120403456000000000000000000000000000000000011204034560000000000000000000000000000000000112040345600000000000000000000000000000000001120403456000000000000000000000000000000000011204034560000000000000000000000000000000000))
 (.node 1 (.leaf 11204034560000000000000000000000000000000000112040345600000000000000000000000000000000001120403456107625520600000000000000000000822111204034560000000000000000000000000000000000111201484800000000001081815859104859280300001120403456000000000000000000000000000000000011204034560000000000000000000000000000000000112040345600000000000000000000000000000000001120403456000000000000000000001043897477822211204034560000000000000000000000000000000000112040345600000000000000000000000000000000001120403456000000000000000000001049008773000011204034561076400241000000000000000000008223112040345600000000001067057781000000000000001120403456000000000000000000000000000000000011204034560000000000000000000000000000000000)
 (.leaf 11204034560000000000000000000010262489440000112040345600000000001091243396104263393000001120403456000000000000000000001025612147000011204034560000000000000000000000000000000000112040345600000000000000000000000000000000001120403456111293147300000000000000000000000011204034560000000000000000000000000000000000112040345610986209091049676585000000000000001120403456000000000000000000000000000000000011204034560000000000000000000000000000000000112040345600000000001107529879000000000082241120403456106931081910773849960000000000000011204034560000000000000000000000000000000000112040345600000000000000000000000000000000001120403456110215879200000000000000000000000011204034560000000000000000000010315690660000))))))))
 (.node 64 (.node 32 (.node 16 (.node 8 (.node 4 (.node 2 (.node 1 (.leaf 11204034561073760275000000000010364382550000112040345610929455681089337924000000000000001120403456000000000000000000000000000000000011204034560000000000105609890410373692510000112040345611141524961059201011107443747700001120403456104300005900000000000000000000000011204034560000000000109249267000000000000000112040345600000000000000000000000000000000001120403456105900215100000000000000000000000011204034560000000000000000000000000000000000112040345611056772221025248959000000000000001120403456109344851310743013441028660515000011204034560000000000000000000000000000000000112040345611086762760000000000000000000000001120403456000000000000000000000000000000000011204034561066643082000000000000000000008225)
 (.leaf 11204034561094709457000000000010711098180000112040345600000000000000000000105733926700001120403456106665503600000000000000000000000011163402240000000000000000000010613000090000112040345600000000000000000000000000000000001120403456000000000000000000000000000000000011204034560000000000000000000010661393920000112040345600000000000000000000000000000000001120403456110837592000000000000000000000000011204034560000000000107245585010413040850000112040345610369053660000000000104923068282261112801280000000000000000000001056969863822711204034561081327923000000000000000000000000112040345610926177070000000000000000000000001120403456000000000000000000000000000000000011204034560000000000000000000000000000000000))
 (.node 1 (.leaf 11204034561096929953000000000000000000000000112040345600000000000000000000103055886900001120403456000000000000000000001035155583000011020533760000000000000000000010359375610000112040345600000000001047676741000000000082281120403456000000000000000000000000000000822911204034560000000000000000000010747421820000112040345600000000000000000000000000000082301120010240000000000000000000000000000000000011193548800000000000000000000010574723610000111712665600000000000000000000104194887400001116078080000000000000000000000000000000000011204034560000000000000000000000000000000000112040345600000000000000000000108703580300001120403456000000000000000000001057623741000011083448320000000000000000000000000000000000)
 (.leaf 11204034560000000000000000000010534073710000112040345600000000000000000000105893555700001120403456000000000000000000001070621068000011204034560000000000000000000010708649180000112040345610740364030000000000108837030400001120403456000000000000000000000000000000000011204034560000000000000000000000000000000000112040345600000000000000000000000000000000001120403456000000000000000000000000000000000011204034560000000000000000000000000000000000112040345600000000000000000000000000000000001120403456000000000000000000000000000000000011204034560000000000000000000000000000000000112040345610899039870000000000104137902000001120403456000000000000000000000000000000000011204034560000000000000000000000000000000000)))
 (.node 2 (.node 1 (.leaf 11204034560000000000000000000000000000000000112040345600000000000000000000000000000000001120403456000000000000000000000000000000000011204034560000000000000000000000000000000000112040345600000000000000000000000000000000001120403456000000000000000000000000000000000011204034560000000000000000000000000000000000112040345600000000000000000000000000000000001120403456000000000000000000000000000000000011204034560000000000000000000000000000000000112040345600000000000000000000000000000000001120403456000000000000000000000000000000000011204034560000000000000000000000000000000000112040345600000000000000000000000000000000001120403456000000000000000000000000000000000011204034560000000000000000000000000000000000)
 (.leaf 11204034560000000000000000000000000000000000112040345600000000000000000000000000000000001120403456000000000000000000000000000000000011204034561059953637000000000010688932300000112040345600000000000000000000108168725100001120010240000000000000000000001077060301823111204034560000000000000000000010608373770000112040345600000000000000000000000000000000001120403456000000000000000000001088967771823211204034560000000000000000000000000000000000112040345600000000000000000000000000000000001120403456000000000000000000000000000000000011204034560000000000000000000000000000000000112040345600000000000000000000000000000000001120403456000000000000000000001070664454000011204034560000000000000000000000000000000000))
 (.node 1 (.leaf 11204034561067341283000000000010533834460000112040345600000000000000000000106753042400001120403456000000000000000000001073639700000011204034561075844764000000000010336902130000112040345610834287050000000000107111804382331120403456000000000000000000000000000000000011204034560000000000000000000010542012080000112040345600000000000000000000095873816400001120403456000000000000000000001037056307000011204034560000000000000000000010470983500000112040345600000000001084677423000000000000001120403456000000000000000000001089869411000011204034560000000000000000000010877474018234112040345600000000000000000000000000000000001120403456000000000000000000001008956214000011204034561038553560109241507510981173460000)
 (.leaf 11204034560000000000000000000000000000000000112040345610537247600000000000000000000000001120403456000000000000000000000000000000000011204034561034352142106056499910926510350000112040345610289404831048092816109233040300001120403456000000000000000000001074507679000011204034560000000000000000000010738233130000112040345600000000000000000000107541348400001120403456000000000000000000000000000000000011204034560975702216105601166210845734900000112040345600000000000000000000000000000000001120403456000000000010748361181069597028000011204034561055106867108017211111008675558235111607808000000000000976715828000000000000001116733440000000000000000000001074518327000011204034560000000000000000000000000000000000))))
 (.node 4 (.node 2 (.node 1 (.leaf 11204034560000000000000000000000000000000000112040345600000000000000000000108019480782361120403456000000000000000000001047860797000011204034561077063755109431048110909832430000112040345600000000001116976959105739460200001120403456000000000000000000001071614931000011204034560000000000000000000000000000000000112040345610698318020000000000107535075800001120010240000000000010834019351083219663000011204034560000000000000000000010575578250000112040345610869915380000000000107827990000001120403456000000000000000000001076966690000011204034560000000000104896523110367723010000112040345600000000001110886187105546320600001120403456000000000000000000001089528585000011167334400000000000000000000010757834748237)
 (.leaf 11204034560000000000000000000000000000000000112040345600000000000000000000000000000000001120403456000000000000000000000000000000000011204034560000000000000000000010578338560000112040345600000000000000000000103629491882381120403456107508594700000000001060351882000011204034560979447428000000000010792272670000112040345610669444930000000000105747944100001120403456109996628210950264491102829143823911204034561068565373110816586610746644640000112040345600000000000000000000105729040200001120403456111766227810594694461070625741000011204034560000000000000000000010767198240000112040345610677639430000000000109442997200001120403456107671868500000000000000000000000011204034560000000000000000000000000000000000))
 (.node 1 (.leaf 11204034560000000000000000000010638978800000112040345600000000001100895801105257937300001120403456105983158310341341720000000000000011204034561068424076110926868010408865150000112040345610712070630000000000106865911200001120403456000000000000000000000000000000000011204034560000000000000000000000000000000000112040345600000000000000000000104348049300001120403456000000000000000000000000000000000011204034560000000000000000000000000000000000112040345600000000000000000000000000000000001120403456000000000000000000001086515565000011204034561051842558109224174610855682110000111935488000000000000000000000108541211800001120403456000000000000000000001068619065000011204034561106661646102390678210622719230000)
 (.leaf 11204034561064941973107715472910283489320000112040345600000000001053568899000000000000001120403456107415023600000000000000000000000011204034561066200038111179095110420153250000112040345610506544961116005702108230506100001120403456000000000000000000001059692690824011204034560000000000000000000010678864178241112040345600000000000000000000107151208482421120403456000000000000000000001088382344824311204034561099559007110400283610760776860000112040345611144720091085813870107158485200001120403456000000000000000000001037362617000011204034560000000000109892945810462337030000112040345610717752410000000000000000000000001120403456000000000010331678051085509870000011204034561092348122106010194710742053570000)))
 (.node 2 (.node 1 (.leaf 11204034561052511465110284248210510370420000112040345600000000000000000000108005893100001120403456000000000000000000000000000000000011204034560000000000107110444600000000000000112040345600000000000000000000000000000000001120403456107473471200000000000000000000000011204034561072686025109924586600000000000000112040345600000000000000000000104888324382441120403456000000000000000000001086743622824511204034560000000000000000000000000000000000110677196800000000000000000000104691277000001120403456000000000011001590191087748247824611204034561108198545110999641810676389080000112040345600000000000000000000000000000000001120403456000000000000000000001050884451000011204034561068812242000000000010822659770000)
 (.leaf 11204034561093656865107687287200000000000000112040345610477723711060814979105907352600001120403456000000000000000000001084629807824711204034560000000000000000000011019165578248112040345600000000000000000000107042829900001120403456000000000000000000001071461656824911204034560000000000109170351110882102750000112040345611060240751111234812105860214800001120403456000000000000000000000000000000000011204034560000000000110689779700000000000000112040345600000000001078560660106736940300001120403456105500271400000000001073269399000011204034560000000000107136449200000000000000112001024000000000001091013758106154221082501120403456106423025000000000000000000000000011204034560000000000000000000010926030858251))
 (.node 1 (.leaf 11204034561068973815000000000010972119600000112040345600000000000000000000000000000000001120403456000000000000000000001070745500000011204034560000000000000000000010738774720000112040345610733620211099743992105898586900001120403456099749595400000000000000000000000011204034561068927157000000000010601289720000112040345610907729301101709233100084367100001120403456105704034010964732741039458972000011204034561068785700000000000010669483190000112040345600000000000000000000108785360682521120403456107579275511074576841069194008000011204034560000000000109105370910630662500000112040345611045677711091917526105308218700001120403456111708427310368051051050794294000011204034561073924100106903665400000000000000)
 (.leaf 11204034561105987247108419465900000000000000112040345600000000001078801832000000000000001120403456104029550411020019961087812641825311204034561063791744000000000010946730050000112040345600000000000000000000106831981400001120403456000000000000000000001059786587000011204034560000000000105908860400000000000000112040345600000000000000000000000000000000001120403456107544368811150363721062166392000011204034561083529530109850510010726865430000112040345600000000000000000000098217962100001120403456105882565411097736221061982106000011204034561076303181000000000000000000000000112040345610761906641101763707107418326100001120403456106616131600000000001052400883000011204034561043416268105742262610914905308254)))))
 (.node 8 (.node 4 (.node 2 (.node 1 (.leaf 11204034560000000000000000000010799223840000112040345600000000000000000000108345931282551120403456103733352010925329351039168358000011204034561062866765105150194600000000000000112040345611119194891062153801000000000000001117913088000000000010941179630000000000000011204034561069642404104275766110251488480000112040345600000000001051676430108206628282561120403456000000000000000000001083391118000011204034560000000000000000000000000000008257112040345610661668020000000000103920775600001120403456108782415111142293881079618237000011204034560000000000000000000010501292960000112040345610748696680000000000106037562900001120403456107173925400000000001068169150000011204034560000000000000000000010918622948258)
 (.leaf 11204034560000000000000000000010920933098259112040345610990068111106569121109262351882601086324736000000000010673555771054132414000010905190400000000000000000000000000000000000112040345600000000000000000000109702655600001120403456107438369510905231291062852544000011204034560000000000000000000000000000000000112040345600000000000000000000108583845382611120403456109080094910791453461095224447000011204034560000000000000000000010967131858262112040345610722099800000000000000000000000001120403456106651027300000000000000000000000011204034560000000000000000000000000000000000112040345610619150951025973735107596429982631120403456000000000000000000001084768131826411204034561062859266109894246110591752180000))
 (.node 1 (.leaf 11204034561107022404110243259410612068600000112040345600000000001100182245000000000000001120403456000000000000000000000000000000000011204034561075419994104491185600000000000000112040345610699604160000000000000000000000001120403456108162371411165804001053368858000011204034561076108888000000000010620613240000112040345600000000001112798554106261068800001093664768000000000000000000001078838843000011204034560000000000000000000010918893500000112040345610855320671094569165106027228700001120403456110696548810728668921095133010000011204034560000000000110079996110694784310000112040345600000000001105533285105468606800001120403456000000000000000000000000000000000011204034561059503269111257520710747664220000)
 (.leaf 11204034561064161480111696803310508797390000112040345600000000001117063427105052815200001120403456000000000000000000001088039812826511204034560000000000109576370300000000000000112040345611067046221090843050103568550900001120403456000000000000000000000000000000000010905190400000000000105098520800000000000000112040345610763639731110498712109523604982661120403456103280622210753834751096650951826711204034561067733005110745503710932647390000112040345600000000000000000000109401157000001120403456000000000000000000000000000000826811204034560000000000000000000000000000008269112040345610868126551040335032102848210682701120403456106578085900000000001061727462000011204034560000000000000000000010303631370000)))
 (.node 2 (.node 1 (.leaf 11204034561077282832000000000000000000000000112040345600000000000000000000000000000000001120403456000000000000000000001044903431000011204034561059335313000000000010745083330000111411200000000000000000000000104641742500001120403456109556893110739456671052458005827111204034560000000000000000000000000000008272112040345600000000000000000000106969538382731120403456103660579210494484151042713946000011204034561062627740000000000000000000000000112040345610573974270000000000107716322400001120403456000000000000000000001066675494827411204034560000000000000000000000000000000000112040345610836504351107711728106829094900001120403456000000000011170478161057388845000011204034560000000000000000000010358670880000)
 (.leaf 11204034560000000000000000000000000000008275112040345600000000000000000000107285211100001120403456000000000000000000001033940211000011204034560000000000107602813910597228330000112040345600000000000953267991104637655500001120403456000000000000000000000000000000000011204034560000000000000000000000000000008276112040345600000000000000000000105371215900001120403456000000000000000000000000000000000011204034560000000000000000000000000000000000112040345600000000000000000000000000000000001120403456106803893010655679641073863104000011204034561053689159110597447410869116378277112040345600000000001116909326107156281200001120403456108383603910897556771097265310000011204034560000000000000000000010696464360000))
 (.node 1 (.leaf 11204034560000000000109195338710705087030000112040345600000000000000000000000000000000001120403456106837005300000000000000000000000011204034561065383734105314611410458677690000112040345610580151970000000000105574144100001120403456000000000011166367221083015465000011204034560000000000111704194410582560790000112040345611153979001083115045109218173482781120403456108912461410845272671082763397000011204034561084942883100908914410671222170000112040345610707945870000000000000000000000001120403456107265047400000000000000000000000011204034560978983571000000000010509194188279112040345600000000001055541900103813126782801120403456105140752400000000001057927574000011204034560000000000000000000010719540458281)
 (.leaf 11204034560000000000103591926810267267530000112040345600000000000000000000000000000082821116078080109097565700000000001048740012000011204034561069603430110784757110620661740000112040345600000000001107431286108658705000001120403456000000000000000000000000000000000011204034560000000000000000000000000000000000112040345600000000000000000000106325946600001120403456000000000000000000000000000000828311204034560000000000000000000010613453120000112040345610682559681107904509104844644500001120403456000000000011127851061097966586000011204034561086078719108722818910889552218284112040345611102034071096422837107698888582851120403456000000000010692824401058525723000011204034560000000000000000000009800004060000))))
 (.node 4 (.node 2 (.node 1 (.leaf 11204034560000000000000000000000000000000000112040345600000000000000000000000000000000001120403456000000000000000000001031761995000011204034561066048313000000000010334963470000112040345600000000000000000000000000000000001120403456000000000010402947660000000000000011204034561053278452110796983510581354810000112040345600000000001116005807108692196582861120403456000000000011172308060000000000000011193548801053248522000000000010489691010000112040345600000000000000000000105689531182871120403456000000000000000000000980889186000011204034560000000000000000000010615895040000112040345600000000000000000000000000000082881120403456000000000011096844931072029061828911204034560000000000000000000010474010450000)
 (.leaf 11204034560000000000000000000000000000000000112040345610522772550000000000000000000000001120403456000000000011072906461069308936000011204034560000000000111575399110910827088290112040345610606937971102006557109500628182911120403456000000000010799368110000000000000011204034561104374660000000000000000000000000112040345600000000000000000000000000000000001120403456106657182900000000000000000000000011204034560000000000109896054900000000000000112040345610959454461051059028105143902482921120403456000000000000000000001047292968000011204034560000000000000000000010591309330000112040345600000000000000000000107798828200001120403456000000000000000000001043335267000011204034560000000000000000000000000000000000))
 (.node 1 (.leaf 11204034561050462363000000000000000000000000112040345600000000001108026379105590445800001120403456000000000011050982311080140132000011204034560000000000000000000010990904368293112040345600000000000000000000103775733700001120403456107308617900000000001031717784000011204034561098763758000000000010320684370000112040345600000000000000000000105888135600001120403456000000000000000000000000000000000011204034560000000000000000000000000000000000112040345600000000000000000000000000000000001120403456000000000000000000001049240780829411204034560000000000110796836710655251170000112040345600000000001106052068108177360882951120403456107967917211167719101028138884000011200102401064190790111702528510092959080000)
 (.leaf 11204034561067054568000000000010909646930000112040345600000000000000000000105199421200001120403456108858266800000000001039784933000011204034560000000000000000000000000000000000112040345600000000000000000000000000000082961120403456000000000000000000001021339544000011204034560000000000110754149210829923148297112040345600000000001105539734109836838200001120403456000000000011111371111070735486829811204034560000000000000000000010287442280000112040345610600709600000000000000000000000001120403456000000000000000000001077649895829911204034560000000000000000000000000000000000112040345600000000000000000000000000000000001120403456106667427100000000001042317026000011204034561093972897000000000010798695578300)))
 (.node 2 (.node 1 (.leaf 11204034561071007146000000000010339121450000112040345600000000000000000000107863466583011120403456108481721309876814170000000000000011204034560000000000000000000010579958600000112040345610713591830000000000102445919200001120403456000000000011010431781046248413000011204034561067336291111622142010829657588302112040345610407021841101469476105729082983031120403456000000000000000000000000000000000011204034560000000000000000000010390334688304112040345600000000000000000000000000000000001120403456000000000000000000001035484119000011204034560000000000000000000010510873020000112040345600000000000000000000000000000000001120403456000000000000000000000000000000000011204034560000000000108329581910603930778305)
 (.leaf 11204034560000000000110801610310578782950000112040345600000000000000000000105372175000001120403456106627008200000000000000000000830611204034560000000000110635746610492697668307112040345610597366910000000000103286692600001120403456105436199200000000001061737384000011204034561059796485000000000010590480420000112040345610167996840000000000000000000000001120403456000000000000000000000000000000000011204034560000000000000000000000000000000000112040345610924496551042489226105131745000001120403456106246206510834984041030920750000011204034560000000000000000000010748261308308112040345600000000000000000000106584823000001120403456110268230000000000000000000000000011204034561070602807000000000010750643490000))
 (.node 1 (.leaf 11204034560000000000000000000000000000008309112040345600000000000000000000000000000000001120403456000000000010830022180000000000000011204034560000000000107435754800000000000000112040345600000000001107988211106136510783101120403456000000000000000000001041521679831111204034560000000000000000000010500107378312112040345600000000000000000000000000000000001120403456000000000000000000001049105076000011204034560000000000000000000000000000000000112040345610681624101108068873106028072800001120403456000000000000000000000000000000831311204034561100904879000000000010513550740000112040345600000000001092695674104561999900001120403456000000000010610381160000000000831411204034560000000000000000000010353073410000)
 (.leaf 11204034561067033177000000000010458736428315112040345600000000000000000000000000000000001120403456105450969900000000001054986433000011204034560000000000000000000010630203950000112040345600000000000000000000000000000000001120403456000000000000000000000000000000000011204034561056819384111607573410792142100000112040345610639784241049102805000000000000001120403456000000000000000000001050775558000011204034561085145384104950210210703420840000112040345600000000001108077655102973750400001120403456000000000000000000001019282571000011204034560000000000000000000000000000000000112040345600000000000000000000000000000000001120403456000000000000000000001022141439000011204034561063199911000000000010331536350000))))))
 (.node 16 (.node 8 (.node 4 (.node 2 (.node 1 (.leaf 11204034560000000000000000000000000000000000112040345600000000000000000000105933981483161120403456106705325110785807930000000000000011204034561062039028000000000010186041870000112040345600000000000000000000103429264800001120403456108244376100000000001028875341000011204034561051607710000000000000000000008317112040345600000000001087569186104091150700001120403456105350575000000000001016582594831811204034561089784756103614743810229621558319110913126400000000001063962385105707579800001120403456000000000010507100620000000000000011204034561067592068110787355010514579658320112040345600000000000000000000100122347483211120403456000000000000000000000000000000000011204034561033026876104404615200000000008322)
 (.leaf 11204034560000000000000000000010070483238323112040345600000000000000000000105616034100001120403456000000000000000000000000000000000011204034560000000000000000000000000000000000112040345600000000001078211274000000000083241120403456106047259000000000001024823424000011175198720000000000000000000010672641058325112040345600000000000000000000107416289800001120403456000000000000000000000000000000832611204034561061008907106436000500000000008327112040345610562190960000000000000000000000001120403456000000000010776504960000000000832811204034561062714412108617793510702231748329112040345610787465680000000000000000000083301120403456000000000000000000000000000000000011204034560000000000000000000000000000000000))
 (.node 1 (.leaf 11204034560000000000000000000000000000000000112040345600000000000000000000000000000083311120403456109459449910903630121067958296833211204034561065398749000000000000000000008333112040345600000000000000000000103721399283341120403456000000000000000000000000000000000011204034560000000000107541619000000000008335112040345600000000001075080646103151395483361120403456000000000000000000000000000000000011204034560000000000000000000000000000000000112040345610721840431052018685000000000083371120403456000000000000000000000000000000833811204034560000000000000000000010370058368339112040345600000000001044482359000000000000001120403456000000000000000000001046295278834011204034560000000000000000000010357901240000)
 (.leaf 11204034560000000000000000000000000000000000112040345600000000001091859749104948098183411120403456106472276200000000000000000000834211204034560000000000105604521700000000000000112040345600000000000000000000000000000000001120403456000000000000000000000000000000000011204034560000000000000000000010391182738343112040345610543804471033704676104829749500001120403456000000000000000000000000000000000011204034560000000000103742250710320506980000112040345600000000000000000000000000000000001120403456000000000000000000000000000000000011204034560000000000000000000000000000000000112040345611130286851060482790106637663583441120403456000000000000000000000000000000000011204034560000000000000000000000000000000000)))
 (.node 2 (.node 1 (.leaf 11204034561074433205000000000000000000000000112040345600000000000000000000000000000000001120403456000000000000000000000000000000000011204034560000000000109851967510318681560000112040345600000000001060249587000000000083451120403456109892084200000000000000000000000011204034560000000000104326097800000000000000112040345600000000000000000000000000000000001120403456000000000011076372791058558586834611204034560000000000000000000010609025078347112040345611204034560000000000000000000000001120403456000000000000000000000000000000000011204034560000000000000000000000000000000000112040345600000000000000000000106693046283481120403456000000000000000000000000000000000011204034560000000000000000000000000000000000)
 (.leaf 11204034560000000000000000000000000000000000112040345610644130540000000000102479337700001120403456000000000000000000001059712653000011204034560000000000000000000000000000000000112040345600000000000000000000000000000000001120403456000000000000000000000000000000000011204034560000000000104889141210272157330000112040345600000000000000000000101797499683491111228416107865218811031940691060089913000011204034560000000000105284076810358288310000112040345600000000000000000000105385356983501120403456000000000000000000000000000000835111204034561104809770000000000000000000000000112040345600000000000000000000000000000000001120403456105951352000000000001042795863000011204034560000000000000000000000000000008352))
 (.node 1 (.leaf 11204034561058915429000000000010659123630000112040345610380648731083988089104533717100001120403456000000000000000000000000000000000011204034561063677407000000000010527085400000112040345600000000000000000000000000000083531120403456105931232811091801281063863075835411204034560000000000000000000000000000000000112040345600000000000000000000000000000000001120403456109811542800000000000000000000000011204034560000000000102511474100000000000000112040345600000000000980151802000000000000001120403456000000000000000000000000000000835511204034560000000000000000000000000000000000112040345600000000000000000000000000000000001120403456106322001000000000000000000000000011204034560000000000000000000000000000000000)
 (.leaf 11204034560000000000103664404400000000000000112040345610632346231107400144104107685683561120403456000000000000000000000000000000000011204034561110404365000000000000000000000000112040345600000000000000000000000000000000001120403456000000000000000000000000000000000011204034560000000000103002711000000000000000112040345600000000001107176299101350314800001111228416000000000011084346431082209009000011204034560000000000000000000000000000000000112040345600000000000000000000000000000000001120403456000000000000000000000000000000000011204034560000000000000000000000000000000000112040345600000000000000000000000000000000001120403456000000000000000000000000000000000011204034560000000000000000000000000000000000))))
 (.node 4 (.node 2 (.node 1 (.leaf 11204034560000000000000000000000000000000000112040345600000000000000000000106195836400001120403456000000000000000000000000000000000011204034560000000000000000000000000000000000112040345600000000000000000000000000000083571120403456000000000000000000000000000000000011204034561072541414000000000000000000008358112040345600000000001077395482000000000000001120403456000000000000000000001017775053000011204034560000000000000000000010364782490000112040345600000000000000000000104520986500001120403456000000000000000000000000000000835911204034561068650493000000000010403219850000111607808000000000001073475066000000000000001120403456000000000000000000000000000000000011204034560000000000000000000000000000000000)
 (.leaf 11204034561074708447000000000010473494150000112040345610566183930000000000104619411283601120403456000000000000000000000000000000000011204034560000000000000000000000000000000000112040345610490647870000000000000000000000001120403456000000000000000000000000000000000011204034560000000000000000000000000000000000112040345600000000000000000000000000000000001120403456000000000000000000000000000000000011204034560000000000104219394710494950990000112040345600000000000000000000000000000000001103626240000000000000000000000000000000000011204034560000000000000000000000000000000000110913126400000000000000000000000000000000001120403456105835366100000000000000000000000011204034561090822224104533464210581745620000))
 (.node 1 (.leaf 11204034561065845611000000000000000000008361112040345610658147660000000000000000000000001120403456110219390810819144251071595481000011204034560000000000000000000000000000000000112040345600000000000000000000000000000000001120403456110389015900000000001043563238000011204034561075461455000000000010517815310000112040345600000000000000000000000000000083621120403456000000000000000000000000000000000011204034560000000000000000000000000000000000112040345610733124530000000000000000000000001120403456000000000000000000000000000000000011204034560000000000000000000000000000000000112040345600000000001047945177105068355300001120403456000000000000000000000000000000000011204034560000000000000000000000000000000000)
 (.leaf 11204034560000000000000000000010179576738363112040345600000000000000000000000000000000001120403456107445296800000000000000000000000011204034560000000000000000000000000000008364112040345600000000000000000000000000000000001120403456000000000000000000000000000000000011204034560000000000000000000010641139438365110834483210720662251001881652108507661183661120403456000000000000000000000000000000000011204034560000000000000000000000000000000000111358771200000000000000000000000000000000001120403456000000000000000000000000000000836711204034560000000000000000000000000000000000112040345600000000000000000000104406314783681120403456000000000000000000001048462129836911204034560000000000000000000000000000000000)))
 (.node 2 (.node 1 (.leaf 11204034560000000000000000000010416810598370112040345600000000001086797015000000000000001120403456000000000000000000000000000000000011204034560000000000000000000000000000000000112040345600000000000000000000000000000000001120403456000000000000000000000000000000000011204034561075117568000000000000000000000000112040345600000000000000000000000000000000001120403456000000000000000000000000000000000011204034560000000000108345981710374465340000112040345610673466850000000000105762625700001120403456000000000000000000000000000000000011204034561072905933000000000010774949680000112040345600000000000000000000000000000000001120403456000000000000000000000000000000000011204034560000000000000000000000000000000000)
 (.leaf 11204034560000000000000000000000000000000000112040345600000000000000000000000000000000001120403456106810662600000000001078141411000011204034561089563976000000000000000000000000112040345600000000000000000000000000000000001120403456110744727800000000000000000000000011181752321043000059000000000010297677210000112040345600000000000000000000000000000000001120403456104517539300000000001043760958000011204034561088350102000000000000000000000000112040345600000000000000000000000000000000001120403456106656292000000000000000000000000011204034560000000000107974261500000000000000112040345600000000000000000000000000000000001120403456000000000000000000000000000000000011204034560000000000000000000010483136990000))
 (.node 1 (.leaf 11204034560000000000000000000000000000000000112040345610759055730000000000101594640583711120403456000000000000000000000000000000000011067719680000000000000000000010654639490000112040345600000000000000000000000000000000001120403456102974713200000000001026480468837211204034561075618314104477763810586013270000112040345610655293940000000000104971640100001120403456106848971700000000001057551228000011204034561083809961102166534610358345950000112040345611177090961016565072101648269200001120403456000000000011021915260000000000000011204034561083361569000000000000000000000000110519910410722003250000000000106323556200001120403456110415991910502134561061870500000011204034560000000000000000000000000000000000)
 (.leaf 11204034561057020996000000000000000000000000112040345600000000000000000000000000000000001120403456000000000010854133140000000000000011204034560000000000000000000000000000000000112040345600000000000000000000000000000000001120403456105781717600000000000000000000000011204034561120379068102432895610419586150000112040345611049482151034442873104424466000001120403456000000000000000000000000000000000011204034561096147918106293394110562788010000112040345600000000001064302962103192312300001120403456000000000000000000000000000000000011204034561114975659103093979100000000000000112040345600000000000000000000000000000083731120403456108770454010844865821041896547000011204034561062513605110923124600000000000000)))))
 (.node 8 (.node 4 (.node 2 (.node 1 (.leaf 11204034560000000000000000000000000000000000112040345600000000000000000000000000000000001120403456111101779000000000000000000000000011204034561106371730105018996800000000000000112040345600000000000000000000000000000083741120403456111922836010749258761040931708000011204034561080450798000000000000000000000000112040345600000000000000000000000000000083751120403456000000000000000000001048843691000011204034561103135148000000000000000000000000112040345600000000000000000000095082310783761102053376109905285310343489211068223024837711204034560000000000000000000000000000000000112040345610806347470000000000000000000000001120403456107641313800000000001054168871837811156848641107821494109182189600000000000000)
 (.leaf 11204034560000000000000000000000000000000000112040345600000000000000000000000000000000001120403456108334622400000000000000000000000011204034561109263349107929256600000000000000112040345600000000000000000000000000000000001120403456000000000010508577010000000000000011204034561067081445000000000000000000000000112040345610677549080000000000000000000000001120403456000000000000000000000000000000000011204034561071144577000000000010717366010000112040345610693697990000000000000000000000001120403456107771353600000000001033819943000011204034561103873939105470975010606512520000112040345611016764691055159380000000000000001120403456108013444710686390340000000000000011204034561079467112000000000000000000000000))
 (.node 1 (.leaf 11148984321114680383104022094610468010870000112040345610749258970000000000000000000000001120403456107673045900000000000000000000000011204034561078299757000000000000000000000000112040345610977385751067433591000000000000001120403456106556220100000000000000000000000011204034561104152404104760963200000000008379112040345600000000001095893726000000000000001120403456110030856310813221900000000000000011204034561058820302110331559900000000000000112040345600000000000000000000000000000000001120403456000000000000000000000000000000000011204034561086651615000000000000000000000000112040345611059449590000000000000000000000001120403456107855025800000000001042614448000011204034561108137871104026792310654997290000)
 (.leaf 11204034561075678401000000000000000000000000112040345611005629081067272530105837622083801120403456107388702700000000000000000000000011204034561107666806105065301910672788108381112040345610888031211068708659000000000000001120403456110512420610490759611019334595000011204034561093466325102166534610474244860000112040345611150711111085263158107060551600001120403456106881834000000000000000000000000011181752321082192973000000000010751137050000112040345611020299131041952355105329734800001120403456111948595300000000000000000000000011204034561062732263000000000000000000000000112001024010759942110000000000000000000000001120403456110179415600000000000000000000000011204034561116296461108627566310866749720000)))
 (.node 2 (.node 1 (.leaf 11204034561119908368105393464310705285780000112040345610974940130000000000000000000000001099431936000000000000000000001057346425000011189616641098754949108036588810624799240000112040345611189463121071794765108044125183821120403456110877896000000000000000000000000011204034560000000000000000000000000000008383112040345610758768760000000000000000000000001120403456107535425300000000000000000000000011204034560000000000104984771300000000000000112040345610819790511055065427000000000000001120403456103841397310486263320000000000000010936647680000000000000000000000000000000000112040345611007449371025893204104338775200001120403456108111121200000000000000000000000011204034561087496981107491497110625253350000)
 (.leaf 11204034561085527367107335510900000000000000112040345610593598740000000000104123777500001120403456000000000010703008170000000000838411204034560000000000000000000000000000000000112040345611028860231012847241101957360300001120403456110783114310206452910000000000838511204034561115328506103394626810398769900000112040345600000000001075192214102875281800001120403456104390522310539379980000000000000011204034561075659388000000000000000000000000112040345600000000000000000000000000000000001120403456110159535500000000000000000000000011204034561049297521000000000000000000000000112040345611073508650988540410102499273700001120403456000000000000000000000000000000000011204034561082920354104379784900000000000000))
 (.node 1 (.leaf 11204034561109158979105600159610697666340000112040345610722958880000000000000000000000001120403456111120583810758775641088099794838611204034561100471813101166612510204987380000112040345600000000000000000000000000000000001120403456107843990600000000000000000000000011204034561074335842000000000000000000000000112040345600000000000000000000102066132800001120403456107281331400000000000000000000000011204034561049448684000000000000000000000000112040345610761557210000000000000000000000001120403456105806358300000000000000000000000011204034561110254829103499316610499332700000112040345611181033881056843812106546984900001120403456107806315700000000000000000000000011204034561091374652106706784700000000000000)
 (.leaf 11204034561103419592000000000000000000008387112040345610645037350000000000000000000000001120403456108362175510688227440000000000000011163402241053702949000000000010764003088388112040345610828958511031476661104299317700001120403456000000000000000000001033494326838911204034561076264367000000000010622912730000112040345611126709811026349544105879147700001120403456106920273110790186780000000000000011204034561100170676106728930710360173870000112040345610649625420000000000000000000000001120403456000000000000000000000000000000000011204034561107349889000000000010318952560000112040345611203771281027101164104225847200001120403456106821848800000000000000000000000011156848640000000000000000000010440043140000))))
 (.node 4 (.node 2 (.node 1 (.leaf 11204034561071369299000000000010265328420000111712665600000000000000000000102817965600001120403456104789679100000000000000000000839011204034560000000000000000000000000000000000112040345610911592910000000000000000000000001120403456000000000000000000001028062630839111204034561108360381110716555110505898230000112040345600000000000000000000000000000000001116078080000000000000000000001064947694000011204034561112447211000000000000000000000000112040345600000000000000000000105445874300001120403456111000206910808012571086585070000011204034561120362313103585215910466400490000112040345600000000000000000000104434408400001120403456112039979110216449440000000000000011204034560000000000000000000000000000008392)
 (.leaf 11204034561118011900106749482800000000000000112040345600000000000000000000000000000000001120403456000000000000000000001034166711000011204034560000000000000000000000000000000000110048051210631865060000000000105239107500001120403456110828711000000000000000000000000011204034560000000000000000000000000000000000112040345600000000000000000000000000000000001120403456000000000000000000000000000000000011204034560000000000000000000000000000000000112040345600000000000000000000000000000083931120403456000000000000000000000000000000000011204034561053048604106015899000000000000000112040345600000000000000000000000000000083941120403456000000000000000000000000000000000011204034561113385232108346715700000000000000))
 (.node 1 (.leaf 11204034560000000000000000000000000000008395111358771200000000001048804170000000000000001120403456107852034000000000000000000000000011204034560000000000000000000000000000000000112040345610935533710000000000000000000000001120403456106797301200000000000000000000000011204034561073332804000000000010816049290000112040345600000000000000000000000000000000001120403456000000000000000000000000000000000011204034560000000000000000000000000000008396112040345600000000000000000000000000000000001120403456000000000000000000000000000000000011204034560000000000000000000000000000000000112040345600000000000000000000000000000000001120403456000000000000000000001044325458000011204034561065820780000000000010331877680000)
 (.leaf 11204034561095285204108229505800000000000000112040345600000000000000000000000000000000001120403456000000000000000000000000000000839711204034560000000000000000000000000000000000112040345600000000000000000000000000000000001120403456000000000010606203631038662190000011204034560000000000000000000000000000000000112040345600000000000000000000000000000000001120403456000000000000000000000000000000000011204034560000000000000000000000000000000000112040345600000000000000000000000000000000001120403456000000000000000000000000000000000011204034561073908329000000000000000000008398112040345600000000000000000000000000000000001120403456000000000000000000000000000000000011204034560000000000000000000000000000000000)))
 (.node 2 (.node 1 (.leaf 11204034560000000000000000000000000000000000112040345600000000000000000000101916173183991120403456000000000000000000000000000000840011204034560000000000000000000000000000000000112040345610707501610000000000000000000000001120403456000000000000000000000000000000000011204034560000000000000000000000000000000000112040345600000000000000000000000000000000001120403456000000000010979299560000000000000011204034560000000000000000000000000000000000112040345610992037741108054979106037031100001120403456000000000000000000000000000000000011204034561108233917000000000000000000000000112040345600000000001073069058000000000000001120403456000000000000000000000000000000000011204034560000000000107182167200000000008401)
 (.leaf 11204034560000000000107755276900000000000000112040345600000000001084506925000000000000001120403456108626853710616706170000000000000011204034560000000000000000000000000000000000112040345600000000000000000000000000000000001120403456111153639610349126351059254211000011204034560000000000000000000009917305890000112040345610564516611091550105104542698900001120403456000000000000000000000000000000000011204034560000000000110274601310290972200000112040345600000000000000000000000000000084021120403456000000000000000000000000000000000011204034560000000000000000000000000000000000112040345600000000000000000000000000000000001120403456000000000000000000000000000000000011204034561073790449000000000000000000008403))
 (.node 1 (.leaf 11204034560000000000000000000010698724860000112040345600000000000000000000000000000000001120403456000000000000000000001055755542000011204034560000000000000000000010367170190000112040345600000000000000000000106089733000001120403456000000000000000000001074422664000011204034561110718549000000000010655932570000112040345611006997671081324706000000000000001120403456108970497810354226630000000000840411204034560000000000000000000000000000000000112040345600000000000000000000000000000000001120403456109695515100000000001055566688000011204034560000000000000000000010625787120000112040345600000000000000000000102619102200001120403456000000000000000000000000000000840511204034560000000000104393206700000000008406)
 (.leaf 11204034560000000000000000000010782123270000112040345600000000000000000000107181795600001120403456000000000000000000001053156468840711204034560000000000000000000010718175420000112040345600000000000000000000107664700800001120403456000000000000000000001066276956000011204034560000000000000000000000000000000000112040345600000000000000000000000000000000001120403456108499808800000000001077711975000011204034560000000000000000000000000000000000112040345600000000000000000000000000000000001120403456000000000000000000000000000000000011204034560000000000000000000000000000000000112040345610888462090000000000107525248200001120403456000000000000000000000000000000000011204034560000000000000000000000000000000000)))))))
 (.node 32 (.node 16 (.node 8 (.node 4 (.node 2 (.node 1 (.leaf 11204034560000000000000000000000000000000000112040345600000000000000000000000000000000001120403456000000000000000000000000000000000011204034560000000000000000000000000000000000112040345600000000000000000000000000000000001120403456000000000000000000000000000000000011204034560000000000000000000000000000000000112040345600000000000000000000000000000000001120403456000000000000000000001044979718000011204034560000000000000000000000000000000000112040345600000000000000000000000000000000001120403456000000000000000000000000000000000011204034560000000000000000000000000000000000112040345600000000000000000000000000000000001120403456000000000000000000000000000000000011204034560000000000000000000000000000000000)
 (.leaf 11204034560000000000000000000010493911580000112040345600000000000000000000000000000000001120403456000000000000000000001060786062000011181752320000000000000000000010671635208408112040345600000000000000000000104161501600001120403456000000000000000000000000000000000011204034560000000000000000000010857084428409112040345600000000000000000000000000000000001120403456000000000000000000001060079874000011204034560000000000000000000000000000000000112040345600000000000000000000000000000000001120403456000000000000000000000000000000000011204034561052493010000000000010650045160000112040345600000000000000000000000000000000001120403456106861661100000000001070703535000011204034560000000000000000000010770351270000))
 (.node 1 (.leaf 11204034561071919885000000000010802997760000112040345610774450970000000000104912395900001120403456000000000000000000000000000000000011204034560000000000000000000010496211740000112040345600000000000000000000000000000000001120403456101401761900000000001049134797000011204034560000000000000000000010905905670000112040345600000000000000000000000000000000001120403456000000000000000000001074104426000011181752321052006236106821876410984371540000112040345610503379101071601890109162387300001120403456000000000000000000001087636769841011204034561070701583000000000000000000000000112040345600000000000000000000000000000000001120403456000000000010333154441088339214000011204034560000000000000000000000000000000000)
 (.leaf 11204034561051377460000000000010761628480000112040345600000000000000000000107423997400001120403456000000000000000000000000000000000011204034560000000000000000000010589939280000112040345600000000000000000000000000000000001120403456000000000011036448001065608401000011204034561055744066107411511710986329110000112040345600000000000000000000000000000000001120403456000000000000000000000000000000000011204034560000000000000000000010826031068411112040345600000000000000000000106180670684121120403456109569710010971530661094043889000011204034560000000000111694704810678540210000112040345600000000000000000000108535781900001120403456000000000000000000000000000000000011204034561073319583000000000010716641570000)))
 (.node 2 (.node 1 (.leaf 11204034560000000000000000000010826529080000112040345600000000000000000000000000000000001120403456000000000011082895461061372462000011204034560000000000000000000010991664080000112040345600000000000000000000000000000000001120403456105824536400000000000000000000841311204034561073873047000000000010531446300000112040345610817098440000000000000000000000001120403456111135883210795563881096554576000011204034561066188637111539936310952690070000112040345600000000000000000000107734206500001120403456000000000000000000000000000000000011204034560000000000000000000000000000000000111712665600000000000000000000106436273100001120403456107963048800000000001034209863000011204034560000000000000000000010545648860000)
 (.leaf 11204034560000000000000000000010492402280000112040345600000000000000000000000000000000001120403456107692034300000000001083877965000011204034560000000000000000000000000000000000112040345600000000000000000000106107734600001120403456105911888610829598561053177156000011204034561064975074106301782800000000000000112040345610583783401113239716105735936200001117913088105115949000000000001079904072841411204034560000000000000000000000000000000000112040345611198877641051501946106515681500001120403456000000000000000000001050263191000011204034560000000000000000000000000000000000112040345610844864291016242949109068511200001120403456107079514910932256241091366072000011204034560000000000000000000010589850348415))
 (.node 1 (.leaf 11204034561058886220105284412400000000000000112040345610766024650000000000000000000000001120403456106527117500000000000000000000000011204034561064956854108732948200000000000000112040345610827558851112729662107685042500001120403456000000000000000000001049118358841611204034560000000000000000000010628265208417112040345600000000000000000000107462207700001120403456000000000000000000001084704990000011204034560000000000000000000010859929300000112040345600000000000000000000000000000000001120403456000000000000000000000000000000000011204034560000000000000000000010947300160000112040345610618256221069930041105187697200001120403456106246674611003991951051220560000011204034560000000000000000000010785691090000)
 (.leaf 11204034561110622463109433260610741584010000112040345611181982101043301243105697285700001120403456107817424300000000000000000000000011204034561080328194109678008700000000000000112040345600000000000000000000108454662684181120403456000000000000000000001091032580841911204034560000000000000000000010171480210000112040345600000000001101474090108784092300001120403456111537319511010177501057954083000011204034560000000000000000000000000000000000112040345600000000001093278892000000000000001120403456000000000000000000001042281949000011204034561083029758000000000010801526080000112040345610237376671003170143110017378000001120403456000000000000000000001076902346000011204034560000000000000000000010641189160000))))
 (.node 4 (.node 2 (.node 1 (.leaf 11204034561058582754109993499010544536360000112040345610679755870000000000105407149200001120403456000000000000000000001048773651000011204034560000000000000000000000000000000000112040345600000000000000000000000000000000001120403456000000000000000000001070147353000011204034561074374375105162945300000000000000112040345610999719501099253049000000000000001120403456108202331410698755150000000000000011204034561071140005103859020100000000000000112040345610558149661037784895109944420784201120403456000000000000000000000000000000000011204034560000000000000000000010830988710000112040345610799275790000000000000000000000001120403456000000000010933671821059096189000011204034561047436827000000000010668541410000)
 (.leaf 11204034561072243426000000000010786584530000112040345600000000000000000000108127295700001120403456000000000000000000001064127707000011204034561094122737103640245210552845520000112040345600000000001082687226106716827000001120403456108752289310781823341069613619000011204034561069887217107030333400000000000000112040345610931756641082335743103670053800001120403456000000000010912773700000000000000011204034561049237526102592004810608713480000112040345610407421141101870032108648103084211120403456106708537110981279270976636804000011204034561118198888106548911110574798060000112040345600000000001050367807000000000000001120403456105872376600000000001075795256000011204034560000000000000000000010837182770000))
 (.node 1 (.leaf 11204034561077644905110268110600000000000000111856844800000000000000000000108272247800001120403456000000000010784574800000000000842211204034561087196369111118649910704704460000112040345610753697300000000000106331350500001120403456106556061610405699130000000000000011204034561042335278102664482310834466978423112040345600000000000000000000109175991884241120403456000000000000000000001094304584000011204034560000000000000000000010849990728425112040345610675043320000000000103287134700001120403456000000000010478646460000000000000011204034561089781667110453346800000000008426112040345610881375350000000000105039461600001120403456000000000000000000001083144222000011204034560000000000000000000000000000008427)
 (.leaf 11204034561101008647109053130810804942780000112040345600000000000000000000000000000000001120403456000000000000000000001095173723842811204034561114911458107657381810869237290000111935488011091435711107933921109395713300001120403456000000000000000000001084644601000011204034561091552696109338857300000000000000112040345600000000000000000000000000000000001119354880000000000000000000001092043065000011204034560000000000000000000010732065708429112040345610669216171109491502107948371700001120403456106144269911022839050000000000000011204034560000000000000000000000000000000000112040345610710470680000000000000000000000001120403456107596023300000000001065764581000011204034560000000000111392506510486224310000)))
 (.node 2 (.node 1 (.leaf 11204034560000000000000000000010946538980000112040345610510856371044428672108863609084301120403456000000000010641469340000000000000011204034560000000000109169711510584576210000112040345611105278691083703925108220979200001120403456000000000010860336511076831335000011204034560000000000110220426610695432130000112040345600000000000000000000000000000000001120403456099128972600000000000000000000000011204034560000000000000000000000000000000000112040345610690160681114319513106764170600001120403456107494111011106517251070699666000011204034561066299493110106110910256572000000112040345600000000001117094229000000000000001120403456000000000000000000001089714410843111204034560000000000110254431910461527080000)
 (.leaf 11204034560000000000000000000000000000000000112040345610774871951107020743108502732284321120403456000000000000000000001066949093843311204034560000000000000000000000000000008434112040345610728483370000000000103851678100001120403456000000000010787099771043661439000011204034561066838461000000000000000000000000112040345600000000001041234290109498369984351120403456106643632800000000001077886473000011204034561089593286104929742010478192948436112040345600000000000000000000000000000084371120403456000000000010991917071052385278000011204034561069868024000000000010359486130000112040345600000000000000000000105244021500001120403456106596993800000000001083562011000011204034560000000000111708062410285158740000))
 (.node 1 (.leaf 11204034560000000000000000000000000000000000112040345600000000000000000000105312604800001120403456000000000000000000001021843315000011204034561099050937102643007510594920308438112040345600000000000000000000104808412900001120403456000000000000000000000000000000000011204034560000000000000000000000000000008439112040345610483460180000000000103504279500001120403456000000000000000000001042712442000011204034560000000000000000000000000000000000112040345610731447821056226410107279940800001120403456101631113211158719301094245643000011204034561085981675107404087810891971470000112040345600000000000000000000000000000084401120403456000000000010933376121057802765000011204034560000000000000000000010502157040000)
 (.leaf 11204034561071137044106667526100000000000000112040345600000000001116999726106425164300001120403456111822292810705205991085822474000011204034561096828228107644002010800392120000112040345600000000000000000000108212270200001120403456107557845100000000001021015431000011204034561071518650000000000000000000000000112040345610700319961107895124104599208300001120403456000000000000000000000000000000000011204034560000000000000000000000000000000000112040345610211338430974997842107807717084411120403456105773537011078439801066037318000011204034560000000000110771862210791680000000112040345600000000000000000000106819407400001120403456000000000000000000001059540200000011204034560000000000000000000000000000000000)))))
 (.node 8 (.node 4 (.node 2 (.node 1 (.leaf 11204034561075915958104344217200000000008442112040345610739825390000000000104917591900001120403456000000000011153240491091826022844311204034560000000000111705759410555437930000112040345600000000001063861721108670788584441096810496000000000000000000000000000000000011204034561092580500000000000000000000000000112040345600000000000000000000000000000000001120403456105029955700000000001048827727000011204034561064521217000000000010514520490000112040345610404823350000000000000000000000001120403456000000000010879577881017003370000011156848640000000000111131775500000000000000112040345610627490571089748546107689381700001120403456000000000011079765461063440702000011204034560000000000110682439710658794268445)
 (.leaf 11204034560000000000000000000010700451710000112040345600000000000000000000102665215700001120403456106820309500000000000000000000000011204034561068333521000000000000000000000000112040345600000000001111346014105749020684461120403456105153993011160537401081064076000011204034561068659846110550277210877403328447112040345600000000001063618452107274760100001120403456106316805100000000000000000000000011204034560000000000110463324000000000000000112040345610666227810000000000104068817800001120403456000000000000000000001042239029844811204034560000000000000000000010444661580000112040345610721961060000000000103796933700001120403456000000000000000000000000000000000011204034561016769620000000000000000000000000))
 (.node 1 (.leaf 11204034560000000000106545723510142787590000112040345600000000001107969494106027997100001120403456000000000011070443881091384371000011196170241088180980111621668910541914040000112040345600000000000000000000109270462684491120403456110219352200000000001040301307000011204034560000000000000000000000000000000000112040345600000000000000000000000000000000001120403456000000000000000000000000000000000011204034560000000000000000000000000000000000112040345600000000001108016392105767624800001120403456106976616911076538731082035854845011204034560000000000000000000000000000000000112040345610991505550000000000000000000000001120403456000000000000000000000000000000000011204034560000000000000000000010478036888451)
 (.leaf 11204034560000000000110496763110932136358452112040345610637730541116342596108301899384531103626240000000000000000000001075380452000011204034560000000000000000000010797823120000112040345600000000001045287666106049779500001120403456102157998300000000001046217987845411204034560000000000000000000000000000008455112040345600000000001107934210105713600784561120403456100849643900000000001029589056000011204034561064997371000000000000000000000000112040345610590240780000000000103206485584571116340224105132937600000000001068424101845811204034561065141655000000000010234503430000112040345600000000000000000000108340506300001120403456110097888910358924251054994088000011204034560000000000000000000010536348948459)))
 (.node 2 (.node 1 (.leaf 11204034560000000000110316953310415168380000112040345600000000001107639324000000000084601120403456106161144411165777000000000000846111204034560000000000000000000010223959310000112040345600000000000000000000000000000000001120403456000000000000000000001049991161000011204034560000000000000000000010314715960000112040345600000000000000000000000000000000001120403456106592167810678161111053324706846211204034560000000000107656710710728055318463112040345600000000000000000000103194709100001120403456000000000000000000001049091208000011204034561099015439101597451410313898618464112040345610620176710000000000105661611284651120403456105915702110921157071043118080000011204034560000000000107884419510331357058466)
 (.leaf 11204034561060859623000000000000000000000000112040345610366686060000000000104473976484671120403456107056975600000000001035055957000011204034560000000000000000000000000000000000112040345600000000000000000000000000000000001120403456109901099600000000000000000000000011204034561099170686106791845210555170158468112040345600000000001070773934105599445084691120403456106355840600000000001074767370000011204034560000000000109802338400000000000000112040345600000000000000000000000000000000001120403456000000000000000000000000000000847011204034560000000000000000000000000000008471112040345600000000000000000000103741741900001120403456000000000000000000001032509634000011204034560000000000000000000000000000000000))
 (.node 1 (.leaf 11204034560000000000107544093700000000000000112040345600000000001085945571000000000000001120403456106704158300000000001066457842847211204034560000000000000000000010677124880000112040345610890683291032362498104126600700001120403456106323131811077519671074929712847311204034561063681417000000000010590173690000112040345600000000000000000000000000000000001120403456000000000000000000001052722015000011193792720000000000000000000000000000000000112040345600000000000000000000000000000000001120403456106683793310546829071075057703847411204034561065676345107322676300000000008475112001024010617298740000000000000000000000001120403456000000000000000000001056385456000011204034560000000000000000000010525485858476)
 (.leaf 11204034561074393145000000000010604996190000112040345600000000000000000000000000000000001120403456106090673410527770150000000000847711204034560000000000110804819010434032430000112040345610168517610000000000104391704800001120403456101835392600000000001053902465000011204034560000000000000000000010175615068478112040345610345481000000000000104440635500001120403456106311647800000000000000000000000011204034560000000000106674069210283748320000112040345610614776460000000000000000000000001120403456107184364110529649201054906712847911204034560000000000000000000000000000008480111044198410680923481100302936106570146600001120403456000000000000000000001043474998848111204034560000000000000000000010285763978482))))
 (.node 4 (.node 2 (.node 1 (.leaf 11020533760000000000000000000010440974160000112040345600000000000000000000102103392900001120403456000000000000000000000000000000000011204034560000000000107354301400000000008483112040345610671901370000000000000000000000001120403456000000000000000000001054818246848411204034560000000000000000000000000000000000112040345610838922451083072473000000000084851120403456106459936500000000001022844881848611204034560000000000000000000000000000000000112040345600000000000000000000000000000000001120403456000000000000000000000000000000000011204034560000000000000000000000000000000000112040345610345757491043079784104055755600001120403456108228599010991867270000000000848711204034560000000000000000000000000000008488)
 (.leaf 11204034560000000000000000000000000000000000112040345600000000000000000000104959765600001120403456105935754210505422900000000000000011204034560000000000000000000000000000008489112040345600000000000000000000000000000000001120403456000000000000000000000000000000000011204034560000000000106406975910407807510000112040345600000000000000000000000000000084901120403456000000000010943404701020979542000011204034560000000000000000000000000000008491112040345600000000000000000000106591562484921120403456000000000000000000000000000000000011204034560000000000000000000000000000000000112040345600000000001083588792000000000000001120403456000000000010610431490000000000000011204034560000000000000000000010668438330000))
 (.node 1 (.leaf 11204034560000000000000000000000000000000000112040345610786448810000000000000000000084931120403456000000000000000000001040387930000011204034560000000000000000000009575476620000112037477810404993141091284291107585972600001120403456000000000000000000001065283674000011204034560000000000108600680800000000000000112040345600000000000000000000000000000084941120403456000000000000000000000000000000000011204034561108192864104959941010577987098495112040345600000000000000000000000000000000001102053376000000000000000000000000000000000011204034560000000000108613997700000000008496112040345610618670950000000000105421883200001120403456000000000000000000001031961581000011204034561119318764000000000000000000000000)
 (.leaf 11204034560000000000000000000010247318360000112040345600000000001083939855103468887600001120403456103836417800000000000000000000849711204034560000000000000000000000000000000000112040345600000000000000000000000000000084981120403456000000000000000000000000000000000011204034561065939420000000000000000000000000112040345610844689181064804601106675211084991120403456000000000000000000000000000000000011204034560000000000000000000000000000000000112040345600000000000000000000103282616185001120403456104001962010632778741063549408850111204034560000000000109745537010432054468502112040345610229221600000000000000000000085031120403456105704681600000000001063118166000011204034561074668228100694166100000000000000)))
 (.node 2 (.node 1 (.leaf 11204034560000000000000000000000000000000000112040345610998689220000000000102779936385041120403456000000000000000000000000000000850511204034561063910375000000000000000000000000112040345610687321140000000000101453176800001120403456000000000000000000000000000000000011204034560000000000000000000000000000000000112040345600000000000000000000000000000000001120403456000000000000000000000000000000000011204034560000000000000000000000000000000000112040345600000000000000000000102592961885061120403456106719017900000000000000000000000011204034560000000000000000000000000000000000112040345600000000001016833507000000000000001120403456000000000010313961310000000000000011204034561043344126000000000010200376788507)
 (.leaf 11204034561063061566000000000010268018650000112040345610669659341108184977100306109785081120403456109106873100000000000000000000000011204034560000000000000000000000000000000000112040345600000000000000000000000000000085091117519872000000000011019369321059084839851011204034561017513723000000000000000000000000112040345600000000000000000000000000000000001120403456000000000000000000000000000000000011204034560000000000000000000000000000000000112040345600000000000000000000000000000000001120403456107781571000000000000000000000000011204034561038228350104313347100000000008511112040345600000000000000000000000000000000001120403456105390159200000000000000000000851211204034561070053135000000000010480066800000))
 (.node 1 (.leaf 11204034560000000000000000000000000000008513112040345600000000000000000000000000000000001120403456000000000000000000000000000000000011204034561075101856000000000010491957440000112040345600000000000000000000000000000085141120403456000000000000000000000000000000851511204034561082378573000000000000000000000000112040345600000000000000000000106149303900001120403456000000000000000000001048180289000011204034560000000000104470381900000000000000112040345600000000000000000000000000000000001120403456000000000000000000000000000000000011204034560000000000000000000000000000000000112040345610742545320000000000104312406800001120403456110096610210106997571042789511000011204034560000000000000000000010236317230000)
 (.leaf 11204034560000000000105382726910602420930000112040345600000000000000000000000000000000001102053376104248593800000000000000000000000011204034561076150122000000000000000000000000112040345610491157230000000000107185067300001120403456110072700100000000000000000000000011204034560000000000000000000000000000008516112040345600000000000000000000000000000000001120403456000000000000000000000000000000000011204034561116413742000000000000000000000000112040345600000000000000000000000000000000001120403456000000000000000000000000000000000011204034560000000000000000000000000000000000112040345610865607430000000000000000000000001120010240000000000000000000000000000000000011204034560000000000000000000000000000000000))))))
 (.node 16 (.node 8 (.node 4 (.node 2 (.node 1 (.leaf 11204034560000000000000000000000000000000000112040345600000000000000000000105755808085171120403456104328668100000000001051954200851811204034560000000000000000000000000000000000112040345600000000000000000000000000000000001120403456000000000000000000000000000000851911204034560000000000000000000000000000008520112040345600000000000000000000000000000000001120403456000000000000000000000000000000000011204034560000000000000000000010688994380000112040345600000000000000000000104457278200001120403456000000000010868718830000000000000011204034560000000000000000000000000000000000112040345610808441230000000000000000000000001120403456000000000000000000000000000000000011204034560000000000000000000000000000000000)
 (.leaf 11204034560000000000000000000000000000008521110755840010465517280000000000107989234700001120403456000000000000000000000000000000000011204034560000000000000000000000000000000000112040345600000000000000000000104045569985221119617024107218293500000000001090998910000011204034560000000000000000000000000000000000112040345600000000000000000000000000000000001120403456000000000000000000000000000000000011104419840000000000000000000000000000000000112040345600000000000000000000000000000000001120403456000000000000000000000000000000000011204034561099723259000000000000000000000000112040345600000000000000000000000000000000001120403456106054417800000000001036190887000011204034560000000000000000000000000000000000))
 (.node 1 (.leaf 11204034561097648188000000000000000000000000112040345600000000000000000000000000000000001120403456000000000010430462300000000000000011204034560000000000000000000010397036418523112040345600000000000000000000105163255685241120403456000000000010998989720000000000000011204034560000000000000000000000000000000000112040345610898496081073463322105590859900001120403456106672735400000000001057782488000011204034561087458024103916733710420301110000112040345600000000000000000000000000000000001120403456108849454410042438841033428678852511204034560000000000110803322100000000000000112040345610819212081021611658000000000000001120403456110993270210787171071040977523000011204034561114884806000000000000000000000000)
 (.leaf 11204034560000000000000000000000000000008526112040345600000000000000000000000000000000001120403456000000000000000000000000000000852711204034560000000000109252402210291191800000112040345600000000000000000000000000000000001120403456108676505410741369271045936098852811204034561117586240103824123510456150250000112040345600000000000000000000000000000000001120403456000000000000000000000000000000000011204034561067095706000000000000000000000000112040345611118604941032496716104472713900001120403456108935056610974479251055322783000011204034560000000000109752027710208867110000112040345600000000000000000000104758761000001120403456111883822910411134941046761866000011204034561115363583103931497710501331780000)))
 (.node 2 (.node 1 (.leaf 11204034560000000000000000000000000000000000112040345600000000000000000000000000000000001120403456105383478500000000000000000000852911204034560000000000000000000000000000000000112040345600000000000000000000107378084985301120403456111566019400000000000000000000000011204034561070621757000000000010307995158531112040345610890356950000000000000000000000001120403456000000000000000000000000000000853211204034561074136483103484552600000000000000112040345610791527701034174438000000000000001119354880111004224610692094591040313190000011204034560000000000000000000010654534820000112040345600000000000000000000000000000000001120403456000000000000000000000000000000000011204034561057807009000000000000000000000000)
 (.leaf 11204034561068849907000000000000000000000000109681049600000000000000000000104751479000001120403456107852666900000000001031765300000011204034561090650520000000000000000000000000112040345610721278050000000000101608389600001120403456000000000000000000000000000000000011204034561100368186101284724100000000000000112040345610987453331043703896105380204800001120403456107592854500000000001035364283000011204034560000000000000000000000000000000000112040345610778189181082895892000000000000001120403456106760435800000000000000000000000011204034561106005365105312933610447243620000112040345610724063241047992153000000000085331120403456107958136900000000000000000000000011204034561069477056000000000000000000000000))
 (.node 1 (.leaf 11204034561092118096110934383700000000000000112040345610991926551080720726000000000000001120403456106559710600000000000000000000000011204034561112511673000000000000000000000000111751987210638641210000000000104955391800001120403456105925852300000000001052236215000011204034560000000000000000000010678183680000112040345610710651200000000000000000000000001114112000108275349200000000001066277404000011204034561085678299109936425000000000000000112040345610816345230000000000000000000000001119354880111003667210539379981063823391853411204034561099196674104722711210161775340000112040345610912785131029839205103698875500001119617024111760228610706598491069560414853511204034561065408883000000000000000000000000)
 (.leaf 10994319361058937609105943589200000000000000112040345611069088650000000000000000000000001120403456106693673400000000000000000000000011204034561104594885105273339410697861430000112040345611002377480000000000000000000000001120403456112007401210613414421071666301000011204034561086402612000000000010493342370000112040345610532925791046898278000000000000001120403456108388073810504785360000000000000011204034561061847432104230132100000000008536112040345610860411320000000000000000000000001120403456107827444510708200721059843780000011204034561061251203000000000000000000000000112040345600000000000000000000000000000000001120403456000000000000000000000000000000000011204034561060938879000000000010471311490000))))
 (.node 4 (.node 2 (.node 1 (.leaf 11204034561103392197000000000010525964690000112040345611089514651039744473102129029385371120403456110434466700000000000000000000000011204034561104311915000000000010450753240000112040345610498815691059291608000000000000001120403456108640129310449319890000000000000011204034561076565782000000000000000000000000112040345610907342031061427347106677097485381120403456109262673900000000000000000000853911204034561113611198103275173010426378990000112040345610168909530000000000000000000000001120403456109970840810372614461045604408000011204034561049075122105193479910644978250000112040345600000000001075130977102578706000001120403456107343465800000000000000000000000011204034561068806412000000000000000000000000)
 (.leaf 11204034561074489857000000000000000000000000112040345611156868971046683530105145884200001120403456107236155400000000000000000000000011204034561071293785000000000000000000000000112040345611125720851030617668103624152700001120403456111627750310630698371068049861854011204034561063277639000000000000000000000000112040345610756198190000000000000000000000001120403456107228880800000000000000000000000011204034561103009504104831427510699914830000112040345610676359661079972043000000000000001120403456106857191710304029201019892589000011204034560000000000000000000000000000008541112001024009793271690000000000107453323900001116340224000000000000000000001068631665000011204034561103672769000000000010176129670000))
 (.node 1 (.leaf 11204034561120371429103275173010435258130000112040345610988813251077947033000000000000001120403456107293788510975283511032418220000011193548801085083495000000000000000000000000112040345610757117920000000000103340113100001120403456110891466300000000000000000000000011204034561083043937101763881410403329960000112040345600000000000000000000000000000000001120403456110110099700000000000000000000000011204034561069387910000000000010267489520000112040345610851877080953267991104355733600001120403456000000000000000000000000000000000011204034560000000000105630023000000000000000112040345610963370971058628908108321110400001120403456000000000000000000000000000000000011204034561073696559000000000010570476360000)
 (.leaf 11204034560000000000000000000000000000008542112040345600000000000000000000000000000000001120403456000000000000000000000000000000000011204034560000000000000000000010406540200000112040345600000000000000000000000000000000001120403456000000000000000000000000000000000011204034560000000000000000000000000000008543112040345610615252590000000000000000000000001120403456000000000000000000000000000000000011204034561060235091000000000000000000000000112040345611184088350000000000000000000000001120403456000000000000000000000000000000854411156848641053569436000000000000000000000000112040345600000000000000000000000000000000001120403456000000000000000000000000000000000011204034561089857147109115730800000000000000)))
 (.node 2 (.node 1 (.leaf 11204034561066138314000000000010542477710000112040345610623814511100869901102760995400001120403456000000000000000000000000000000000011204034560000000000000000000000000000000000112040345600000000000000000000000000000000001120403456000000000000000000000000000000854511204034560000000000000000000000000000000000112040345600000000000000000000000000000000001120403456000000000000000000000000000000000011204034561067316243000000000010417880280000112040345600000000001080453549000000000000001120403456000000000000000000000000000000000011204034560000000000000000000010382582170000112040345610922176881075674559101583464185461120403456000000000000000000000000000000000011204034560000000000104240869510513031010000)
 (.leaf 11204034560000000000000000000000000000000000112040345600000000000000000000000000000000001120403456000000000000000000001050194863000011204034561074821459000000000000000000000000112040345600000000000000000000000000000000001120403456000000000000000000000000000000000011204034560000000000000000000000000000000000112040345600000000000000000000105611779100001120403456000000000000000000000000000000000011204034560000000000105213948100000000000000112040345600000000001077295238000000000000001120403456106712562800000000000000000000000011204034560000000000000000000000000000000000112040345600000000000000000000000000000000001120403456000000000000000000000000000000000011204034560000000000000000000000000000000000))
 (.node 1 (.leaf 11204034560000000000000000000010384140358547112040345610501142361099205181000000000000001120403456000000000000000000000000000000000011204034560000000000000000000000000000000000112040345611143864690000000000000000000000001120403456106325334610447575060000000000000011204034560000000000000000000000000000000000112040345611007219651072474305000000000000001120403456000000000000000000000000000000000011204034560000000000104817334700000000000000112040345600000000000000000000000000000000001120403456000000000000000000000000000000000011204034561110453398107014311110586019618548112040345600000000001091203446000000000000001120403456000000000000000000000000000000000011204034560000000000000000000000000000000000)
 (.leaf 11204034560000000000107586959410529818380000112040345600000000000000000000101900622300001120403456110100331710420127530000000000000011204034560000000000000000000000000000000000112040345600000000000000000000101873970885491117519872000000000000000000001036817205000011204034561074710381000000000000000000000000112040345600000000000000000000000000000000001120403456000000000000000000000000000000000011204034560000000000000000000010531294550000112040345610931677220990916064106321178600001120403456000000000000000000001057905921000011204034560000000000000000000010672761320000112040345610864308691074610884000000000085501120403456107825987010694896390000000000855111204034560000000000000000000000000000008552)))))
 (.node 8 (.node 4 (.node 2 (.node 1 (.leaf 11204034560000000000000000000000000000000000112040345610914592190000000000105451098400001119617024107550668600000000001068643303000011200102401029467691000000000000000000000000112040345600000000000000000000000000000085531120403456000000000000000000000000000000855411204034560000000000000000000000000000008555112040345600000000000000000000106268909500001120403456000000000000000000001078676663000011204034560000000000000000000010666971218556111489843200000000000000000000000000000000001120403456000000000000000000001089267320000011204034561057336811000000000010612700158557112040345600000000000000000000108281268700001120403456000000000000000000001028215192000011204034560000000000000000000000000000000000)
 (.leaf 11204034560000000000000000000000000000000000112040345600000000000000000000000000000000001120403456108939522400000000001069698380000011204034560000000000000000000000000000000000112040345600000000000000000000000000000000001120403456000000000000000000000000000000000011204034560000000000000000000000000000000000112040345600000000000000000000000000000000001120403456000000000000000000000000000000000011204034560000000000000000000000000000000000112040345600000000000000000000000000000000001120403456000000000000000000000000000000000011204034560000000000000000000000000000000000112040345600000000000000000000000000000000001120403456000000000000000000000000000000000011204034560000000000000000000000000000000000))
 (.node 1 (.leaf 11204034560000000000000000000000000000000000112040345600000000000000000000000000000000001120403456000000000000000000000000000000000011204034560000000000000000000000000000000000112040345600000000000000000000000000000000001120403456000000000000000000001075491930000011204034561072247469000000000010744073240000111961702400000000000000000000106910326385581120403456106179028900000000001059210593000011204034560000000000000000000010940475678559112040345600000000000000000000000000000000001120403456000000000000000000000000000000000011204034560000000000000000000010866571740000112040345600000000000000000000000000000000001120403456000000000000000000000000000000000011204034561069797584000000000010522498080000)
 (.leaf 11204034560000000000000000000000000000000000112040345610721240390000000000105707711300001120403456000000000000000000001088492591000011204034560000000000000000000010750696930000112040345610728714220000000000106078310400001120403456000000000000000000000000000000000011204034560000000000000000000010606156850000112040345610887175950000000000100067579500001120403456000000000010420060421094548449000011175198720000000000000000000010820032190000112040345600000000000000000000000000000000001120403456000000000000000000001071245806000011204034561076246692000000000010453164140000112040345600000000000000000000109287587785601120403456000000000000000000001049172852000011204034560000000000000000000000000000000000)))
 (.node 2 (.node 1 (.leaf 11204034560000000000000000000010662602220000112040345610459500301054870811109663088900001120403456107881145400000000001072860040000011204034560000000000000000000000000000000000112001024000000000001083345312109445301700001120403456000000000000000000000000000000000011128012800000000000000000000010824431460000112040345600000000000000000000000000000000001120403456000000000010355166151065745382000011204034560000000000111497146510494076660000112040345600000000000000000000000000000000001116733440106083628600000000001080152703000011204034560000000000000000000010682876838561112040345600000000000000000000108226283200001120403456000000000000000000000000000000000011204034560000000000000000000000000000000000)
 (.leaf 11204034561024254137103766409910686637790000112040345600000000000000000000105874863700001120403456099885584810936255510843063432000011204034560000000000000000000010874301990000112040345610581796810000000000106283780685621120403456107272150100000000000000000000000011204034561072845384000000000010597915870000112040345600000000000000000000096859406200001120403456107583898900000000000000000000000011204034561113316003107812696910892289800000112040345610724051331116096050108872860700001120403456000000000000000000001066288958000011204034560000000000000000000000000000000000112040345600000000000000000000000000000000001120403456102864788910791008861074913366000011204034561062227570103339597500000000000000))
 (.node 1 (.leaf 11204034561065950049111266263200000000000000112040345600000000000000000000000000000000001120403456000000000000000000000000000000000011204034561113371217104138193010548417650000111122841600000000000000000000106315850000001120403456106805284600000000000000000000000011204034560000000000000000000000000000000000112040345610522484651033530193104066197400001120403456105973561710165113851065473051856311204034560000000000000000000010507421820000112040345610937090431040469249000000000000001120403456106982044311034644451042484361000011204034560000000000000000000010408323308564112040345600000000000000000000107857358700001120403456000000000000000000001070424852000011204034561041973427000000000000000000000000)
 (.leaf 11204034560000000000000000000010585545720000112040345600000000000000000000000000000000001120403456108041859411036487841025246785000011204034560000000000000000000010828918798565110991769600000000000000000000105836272100001120403456110200629011090319111065254117000011204034561085909754109720654310592530010000112040345611180444181054753371105046411000001120403456101246284110987679780000000000000011204034561107273228105353534510705766000000112040345600000000000000000000109148053485661102053376000000000000000000001049364542000011204034560000000000110537961610721616210000112040345600000000001025114741000000000000001120403456000000000011011663330000000000000011204034560000000000109382740200000000000000))))
 (.node 4 (.node 2 (.node 1 (.leaf 11204034560000000000000000000010982356090000111044198400000000000000000000107086187200001120403456000000000000000000001050475190000011171266561046784663110446143110535713850000112040345610671291510000000000105164377300001120403456105457325100000000001036121432000011204034560000000000000000000000000000000000112040345611107263001093194587000000000000001120403456106398223210874249020000000000000011204034561071518507109576087100000000000000112040345610658815390000000000106863858400001120403456000000000000000000001063695722000011204034561118082463105739074910353294700000112040345600000000000000000000000000000000001120403456106368878210388989021080186601000011204034560897988541109481998410768101980000)
 (.leaf 11204034560000000000000000000010806377020000112040345610794828821069565136109242907485671119354880000000000000000000001064326354000011200102400000000000000000000010817045650000112040345610292795171065765936108542983000001120403456105661305810849703951067535705000011204034560000000000106546730110543446370000112040345600000000000000000000107469518400001120403456107731199500000000001025808498000011204034561089022932102645691810331420310000112040345600000000000000000000000000000000001120403456107847566200000000001051687527000011204034561070428970000000000010471073360000112040345610258972301107149665108296940285681120403456000000000000000000001074833044000011204034561114843471106514182310524135500000))
 (.node 1 (.leaf 11204034560000000000000000000010878323308569112040345600000000000000000000108771863185701120403456000000000000000000000000000000857111204034561075359915111611675910619687080000112040345610660839640000000000108049824000001120403456000000000010213969101090841513857211204034560000000000000000000010879759138573112040345610643631250000000000104280572500001120403456000000000010250610540000000000000011204034561095505318110248617600000000008574111280128010570622011100718748107635535900001120403456105485943600000000001030638532000011204034560000000000000000000010904246940000112040345600000000000000000000104678299985751120403456110273206510944286561068151596000011204034560000000000000000000010545493550000)
 (.leaf 11204034561079335113107394608710913944880000112040345600000000000000000000109530184900001120403456111687650310922206691095653710000011004805121083913150108889081110696797830000111961702400000000000000000000109784176200001120403456000000000000000000001078258507857610905190400000000000000000000000000000000000112040345610738571131101737021105701297500001120403456000000000000000000000000000000000011204034560000000000000000000000000000000000112040345610719937300000000000106526110600001120403456000000000011162750161049841172000011204034560000000000111272250610359689790000112040345600000000000000000000108345756500001120403456000000000010929841371051916529000011204034561099429634109751839010895766080000)))
 (.node 2 (.node 1 (.leaf 11204034560000000000110490550310729577340000112040345600000000000000000000000000000000001120403456106614226500000000000000000000000011204034561081247405111253994910324352750000112040345600000000001096757543107424619985771109131264000000000010415832561082541627000011204034560940206459000000000000000000008578112040345600000000001088072293105829416600001120403456106592146911105527661070881333000011204034561083333941000000000000000000000000112040345600000000000000000000000000000000001112014848000000000011089376441064172137000011204034561084240091110744709410712790708579112040345610669901100000000000104475686000001120403456106766468000000000000000000000000011204034560000000000110040905210424928960000)
 (.leaf 11204034561057505791000000000010879235900000112040345610686283050000000000108633039500001120403456106489749600000000001079861296858011204034561052066835000000000010360967490000112040345610746152210000000000105297714600001120403456000000000011169520941029939333000011204034561033859026104305965110825466898581112040345600000000001078722141106762512000001120403456000000000000000000000000000000000011204034560000000000000000000000000000000000112040345600000000000000000000106589365200001120403456108303975510344294511057585879858211204034560000000000000000000000000000000000112040345600000000000000000000000000000085831120403456000000000000000000001042085187000011204034560000000000000000000000000000000000))
 (.node 1 (.leaf 11204034561063995805103618770410784158490000112040345610648039131116966053105185589300001118568448108839764310662197591072181067000011204034561077591218108236237710750963100000112040345600000000000000000000106850444300001120403456000000000000000000001068887190000011204034560000000000000000000010786681150000112040345610531234311050793948000000000000001120403456106735142411075908271079976054000011204034561116344937107354301410918630370000112040345610585640970000000000000000000000001120403456000000000000000000000000000000858411204034561059332007000000000010267564170000112040345609399315810000000000105025931600001120403456099624611800000000000000000000000011204034560000000000000000000010803088158585)
 (.leaf 11204034561073844891000000000010630466770000112040345610500429661107914051106639848400001120403456000000000011071561661091149398000011204034561037202792111574975810917689118586112040345610733552771116561211108123559600001120403456000000000000000000001068428753000011204034561073534575000000000000000000000000112040345600000000001021504284000000000085871120403456000000000010251147410000000000000011204034560000000000107433951210806676938588112040345600000000000000000000107057148600001120403456106238717210458513800000000000858911204034561076503614000000000010402287330000112040345610727914621066759986107937259000001120403456110451774500000000000000000000000011204034561059583062110793808910560705110000)))))))))
 (.node 128 (.node 64 (.node 32 (.node 16 (.node 8 (.node 4 (.node 2 (.node 1 (.leaf 11204034560000000000110171568210424273278590112040345600000000000000000000107080370600001120403456000000000000000000001026344450859111204034561066157323000000000000000000000000112040345610665084780000000000000000000000001120403456107427785211164257481082850730000011204034561053354386110998066310778190128592112040345600000000000000000000106458791800001120403456107943151500000000000947939722000011204034561079394299110095667000000000000000112040345600000000001106565923109359608085931120403456107394098200000000001024891896000011204034560000000000000000000010334485880000112040345600000000000000000000105304586100001120403456107677070300000000000000000000000011204034560000000000000000000010614676130000)
 (.leaf 11204034560000000000000000000000000000000000112040345600000000001058115525000000000000001120403456107015659211169416481045337298000011204034561059845675000000000010918507880000112040345610984684490000000000000000000000001120403456000000000000000000000000000000000011204034560000000000110791939910687621148594112040345600000000001108058440103760634600001120403456107405540711164358931083266760000011204034560000000000000000000000000000000000112040345600000000000000000000107229354700001120403456000000000000000000000000000000000011204034560000000000000000000010036823870000112040345611016479641059672451000000000085951120403456102512950500000000001057321312000011204034560000000000107603820510271887180000))
 (.node 1 (.leaf 11204034561069419762000000000000000000008596112040345600000000000000000000000000000085971120403456102766783100000000000000000000859811204034560000000000110799502710546500890000110913126400000000000000000000000000000000001120403456000000000000000000001051331094000011204034560000000000110805054910222579690000112040345610961160060000000000105382152200001120403456105612111711084564530000000000859911204034561040615345000000000010430490450000112040345600000000000000000000000000000086001120403456000000000000000000000000000000000011204034560000000000000000000010822055480000112040345600000000000000000000108390032900001120403456000000000010167798200000000000000011204034561070757921109238529610584706568601)
 (.leaf 11204034560000000000110577723610518995780000112040345610577659210000000000105496357886021120403456000000000000000000000000000000000011204034560000000000000000000010583106830000112040345600000000001025114741000000000000001120403456107334951400000000001042034264000011204034561066801836108266122110187206470000112040345600000000001067767457105957606286031120403456104956780200000000000000000000000011204034561055789834000000000010533315230000112040345610984437071062595042000000000086041120403456106065789400000000000000000000000011204034561101748831000000000000000000000000112040345610656648280000000000104533057700001120403456000000000010942778700000000000000011204034560000000000000000000000000000000000)))
 (.node 2 (.node 1 (.leaf 11204034560000000000000000000000000000008605112040345610653665540000000000099340089486061116078080000000000000000000001071489254000011204034560000000000000000000010463194430000112040345600000000000000000000102975258186071120403456106515380210925110200000000000000011179538250000000000000000000010190290850000112040345611041807730000000000104050450700001120403456106591617500000000001080790865860811204034561033465231000000000010451112100000112040345610523651011110973429107546655386091120403456000000000000000000000000000000861011179130881054970233000000000000000000000000112040345600000000000000000000106313550400001120403456000000000000000000000000000000000011177385920000000000000000000000000000000000)
 (.leaf 11204034560000000000000000000000000000000000112040345610627221460000000000000000000000001120403456000000000000000000001072744827000011204034561073127207000000000010577824940000112040345600000000000000000000106628302400001120403456000000000000000000000000000000000011204034561060858063000000000000000000000000112040345610384877930000000000000000000000001120403456107060053410250610541053827368000011204034560000000000110808234700000000000000112040345610702649390000000000101996249100001120403456097939588810654161311047784963000011204034560000000000108310288100000000000000112040345600000000001061928986103285046186111120403456000000000000000000001075764741861211204034560000000000104192551200000000000000))
 (.node 1 (.leaf 11204034561080220245104399246500000000008613112040345600000000000000000000000000000086141120403456000000000000000000000000000000000011156848640000000000000000000010601963380000112040345600000000000000000000105111306686151120403456000000000000000000000000000000000011204034560000000000000000000000000000000000112040345600000000000000000000106249919800001120403456000000000000000000000000000000000011204034561073885936000000000000000000000000112040345610751225131032080641000000000086161120403456106598992000000000000000000000000011204034560000000000000000000000000000008617112040345600000000000000000000000000000086181120403456000000000000000000000000000000000011204034561066421296107076051300000000000000)
 (.leaf 11204034561063231368110106818610611314380000112040345610908935611007049035105411188186191120403456000000000000000000000000000000862011204034560000000000000000000000000000000000112040345600000000000000000000103788691200001120403456000000000000000000001012408688000011204034560000000000000000000010467535738621112040345600000000000000000000000000000086221120403456000000000000000000001080657239000011204034560000000000000000000000000000000000112040345610871917201100056363000000000000001120403456105737697510949038701021310452862311204034560000000000000000000000000000008624112040345600000000000000000000000000000000001120403456000000000000000000000000000000000011204034560000000000107253470300000000000000))))
 (.node 4 (.node 2 (.node 1 (.leaf 11204034560000000000000000000000000000000000109530746700000000001084006964000000000000001120403456110118128810363890300000000000862511204034560000000000000000000000000000000000111817523200000000000000000000101892336000001120403456000000000000000000000000000000862611204034560000000000108024425300000000008627112040345600000000001084861972000000000000001120403456105331831500000000001065104763000011204034561062701309108580485210563821978628112040345611204034560000000000000000000000001120403456000000000000000000000000000000000011204034560000000000107629321910217679858629112040345610682104430000000000104188805700001120403456000000000010450393630000000000000011204034561059187639000000000010387566820000)
 (.leaf 11204034560000000000000000000010401879370000112040345610038251250000000000000000000000001120403456104023987100000000000000000000000011204034561063034756104829414310467489298630112040345600000000000000000000000000000000001120403456000000000010730959011036596329863111204034560000000000000000000000000000000000112040345610637081930000000000000000000086321120403456107437716010453279311076917679863311204034560000000000106631371210482123610000112040345610667938001067087141000000000086341120403456108265455910550855600000000000000011204034560000000000000000000000000000000000112040345600000000000000000000000000000000001120403456107441748400000000001061914787000011204034560000000000000000000000000000000000))
 (.node 1 (.leaf 11204034561106628158000000000000000000000000112040345610493040980000000000106681485900001120403456000000000000000000000000000000000011204034560000000000000000000000000000000000112040345600000000000000000000000000000000001120403456109463473200000000001016554294000011204034560000000000103040292000000000000000112040345600000000000000000000000000000000001120403456107448211000000000001043921825863511204034560000000000000000000000000000000000112040345611086226200000000000000000000000001110441984092975143510983272611068339141000011204034561110221140000000000000000000000000112040345600000000000000000000000000000000001120403456000000000000000000000000000000863611204034560000000000000000000000000000000000)
 (.leaf 11204034560000000000000000000000000000000000112040345600000000000000000000104034531600001120403456000000000000000000000000000000000011204034560000000000000000000000000000000000112040345610499210630000000000104495250386371120403456109513594010501933241068074511000011204034560000000000000000000009984464918638112040345600000000000000000000105301544500001120403456000000000000000000000000000000000011204034560000000000000000000000000000000000112040345600000000000000000000104169034400001120403456000000000000000000000000000000000011204034560000000000000000000000000000000000112040345610664430140000000000000000000000001120403456000000000000000000001051934276000011204034561070070432109338280610605244360000)))
 (.node 2 (.node 1 (.leaf 11204034560000000000000000000000000000000000112040345610945142220000000000105574271100001120403456107618974600000000001060073283000011204034560000000000000000000000000000000000112040345600000000001050545645105811085700001120403456000000000000000000000000000000000011204034561067387982000000000010415422550000112040345600000000000000000000000000000000001120403456000000000000000000000000000000863911204034560000000000000000000000000000000000112040345600000000000000000000000000000000001120403456000000000000000000000000000000000011204034561115163584000000000010155848070000112040345610738944800000000000102600345600001120403456110084294510249536801037673704000011204034560000000000000000000000000000000000)
 (.leaf 11204034560000000000000000000010338189188640112040345600000000000000000000106845840086411120403456000000000000000000000000000000000011204034560000000000000000000000000000000000112040345610361671680000000000104623191886421120403456000000000000000000000000000000864311204034560000000000000000000010390034530000112040345600000000000000000000000000000000001120403456000000000000000000000000000000000011204034561062366570000000000010225504400000112040345600000000000000000000104554366900001120403456000000000000000000000000000000000011148984320000000000105560229800000000000000112040345600000000000000000000000000000000001120403456110372345700000000000000000000000010936647681058568376000000000000000000000000))
 (.node 1 (.leaf 11204034561103147075000000000000000000000000112040345600000000000000000000000000000000001120403456000000000000000000000000000000000011204034560000000000000000000010428334020000112040345600000000000000000000000000000086441120403456000000000000000000000000000000000011204034560000000000000000000000000000000000112040345600000000000000000000000000000000001120403456000000000000000000000000000000000011204034560000000000000000000000000000000000112040345600000000000000000000000000000000001120403456000000000000000000000000000000000011204034561088038413000000000000000000000000112040345610707803180000000000105177237100001120403456000000000000000000000000000000000011204034561105579259000000000000000000000000)
 (.leaf 11204034560000000000000000000010504478790000112040345600000000000000000000000000000000001120403456109583409810773153710000000000000011204034560000000000000000000010576169840000112040345610929625561072387903104023942600001120403456109629234610727377081035618514000011204034561083308237101806831010493951060000112040345600000000001094419848000000000000001120403456000000000000000000000000000000000011204034561101478137107323683010349032950000112040345600000000000000000000000000000086451120403456111986734800000000000000000000000011204034560000000000109139869010351950170000112040345600000000000000000000000000000000001120403456106069431710751896980000000000000011204034561103664134107867726200000000000000)))))
 (.node 8 (.node 4 (.node 2 (.node 1 (.leaf 11204034560000000000107926740000000000000000112040345610901840811045059496104750219686461120403456000000000000000000001041784568000011204034560000000000000000000010367153930000112040345611090722931020430542102841519000001120403456000000000011063941661052907519000011204034561085135150106164209600000000000000112040345611178586561055280176000000000000001120010240000000000000000000000000000000000011204034560000000000000000000000000000000000112040345600000000000000000000000000000000001120403456108334022700000000001068798241000011204034560000000000000000000000000000000000112040345610889917241083381173000000000000001120010240109335648811084019530000000000000011051991041095487328000000000010284489860000)
 (.leaf 11204034561041874576103255040300000000000000112040345610920313490000000000000000000000001120403456105485846300000000001059295844000011204034560000000000000000000000000000000000112040345610656996660000000000000000000000001120403456000000000000000000000000000000000011204034561071605917000000000000000000000000112040345610825804200000000000000000000000001120403456000000000000000000000000000000000011204034561107417596105959024210649208150000112040345611065231520000000000000000000000001120403456107315795200000000001040818705000011204034561037146287106277959100000000000000112040345610654642730000000000000000000000001120403456104952861000000000000000000000864711204034561084738522000000000000000000000000))
 (.node 1 (.leaf 11204034561102209505104809952710466152620000112040345610813737250000000000000000000000001120403456109628113710485692890000000000000011204034561066783088000000000000000000000000112040345611117996830000000000000000000000001120403456107117530400000000001050572635000010779361280000000000000000000010435298690000112040345610913404141110972485000000000000001120403456109314886110878439130000000000000011204034561104068943102962445700000000000000112040345610804350520000000000104094097000001118568448111642830410753348211043029151000011204034561102964776000000000000000000000000112040345610682497600000000000000000000000001120403456110250365910519448651074118128864811204034561106827215000000000000000000000000)
 (.leaf 11204034561068654536000000000000000000000000112040345610802481421057657507000000000000001120403456112034926710424340611048742129000011204034561082959440000000000010391898570000112040345610773928101074742166105736764800001120403456105862860600000000000000000000000011204034561051939832105617607900000000000000112040345600000000000000000000000000000086491120403456000000000000000000000000000000000011204034561050218791000000000010729500640000112040345611040177981018658868105181117100001120403456110835857300000000000000000000000011204034561076046921108044683800000000000000112040345610870762230000000000000000000000001120403456107299107700000000000000000000000011204034561042391583105799976200000000000000)))
 (.node 2 (.node 1 (.leaf 11204034561090545420108601079210661397600000112040345610815440891068040087000000000000001120403456111545568800000000001041777010000011204034561100184290104995173210590598640000112040345610714332200000000000000000000000001120403456103816580510493947281060364178865011204034560000000000000000000000000000000000112040345610818063170000000000000000000000001120403456107885981900000000000000000000000011204034561105631693105104896210592983480000112040345610802691380000000000000000000000001120403456111352708600000000000000000000865111204034561070639088000000000000000000000000112040345610746987880000000000000000000000001120403456107416025600000000000000000000000011204034561109243918106272758210743139920000)
 (.leaf 11204034561079118058107407233510592052920000112040345611160182031032899369104022372900001120403456112029990910489271381057460145000011204034560000000000000000000000000000000000108632473600000000000000000000105589783400001120403456107756991500000000000000000000000011204034560000000000000000000000000000008652110205337610693462690000000000104273855000001120403456110336706810569310541061383840865311204034561111889930000000000000000000000000112040345600000000000000000000000000000000001120403456099615592400000000000000000000000011204034560000000000107420697200000000008654112040345611045004520000000000000000000000001116340224000000000000000000000000000000000011204034561050251104000000000000000000000000))
 (.node 1 (.leaf 11204034561073753224000000000000000000000000112040345600000000000000000000000000000000001120403456111366592210240946861059763083000011204034560000000000000000000000000000008655112040345600000000000000000000000000000000001120403456000000000000000000000000000000000011204034560000000000000000000000000000000000112040345600000000000000000000105143691700001120403456000000000000000000000000000000865611204034560000000000000000000000000000000000112040345600000000000000000000000000000086571120403456107564990500000000000000000000000011204034561072747497000000000010436562950000112001024000000000000000000000000000000000001120403456000000000000000000001033305037000011204034561079261897000000000000000000000000)
 (.leaf 11189616641067726706000000000010640437078658110834483200000000000000000000000000000000001120403456000000000000000000000000000000000011204034560000000000000000000000000000000000112040345610561560800000000000000000000086591120403456000000000000000000000000000000000011204034561106186373103195984500000000000000112040345600000000000000000000000000000000001120403456000000000000000000001056232150000011204034561106495060104540846210571897888660112040345610687394030000000000105939809500001120403456000000000000000000001074660947000011204034560000000000000000000000000000000000112040345610826382320000000000000000000000001120403456107645452800000000000000000000866111204034560000000000000000000000000000000000))))
 (.node 4 (.node 2 (.node 1 (.leaf 11204034560000000000000000000000000000000000112040345600000000000000000000000000000000001120403456000000000000000000000000000000000011204034561102633028107557389600000000000000112040345600000000000000000000000000000000001120403456000000000000000000000000000000000011204034560000000000110368815800000000000000112040345600000000001070417419000000000000001120403456107270170400000000000000000000000011204034560000000000000000000000000000000000112040345600000000000000000000000000000086621120403456000000000000000000000000000000000011204034560000000000000000000010496415560000112040345600000000001044005886104912728900001120403456000000000000000000000000000000000011204034560000000000108243850400000000000000)
 (.leaf 11204034560000000000000000000000000000000000112040345611084887950000000000000000000000001120403456000000000010624037810000000000000011204034560000000000000000000000000000000000112040345600000000000000000000000000000000001120403456099231622300000000000000000000000011204034560000000000000000000010348813638663112040345600000000000000000000103630849400001120403456000000000000000000000000000000000011200102401100742779104188524610789487060000111489843200000000000000000000106466426800001120403456109915489600000000000000000000000011204034561082503184000000000000000000000000112040345600000000000000000000000000000000001120403456000000000000000000001063994675000011204034560000000000000000000010617094510000))
 (.node 1 (.leaf 11204034560000000000000000000010860042760000112040345610833746321072417263000000000086641120403456109243257000000000001031908140866511204034560000000000107523793200000000000000112040345610939423690000000000106252750200001114898432105320114300000000000000000000000010994319360000000000000000000000000000000000112040345600000000000000000000000000000086661120403456000000000000000000000000000000000011204034560000000000000000000010747667850000112040345600000000000000000000108439135586671120403456000000000000000000001082042529000011204034561064051153000000000010916377008668112040345600000000000000000000097361678800001120403456000000000000000000000000000000000011204034560000000000000000000010721478830000)
 (.leaf 11204034560000000000000000000000000000000000112040345600000000000000000000104958517900001120403456000000000000000000000000000000000011204034560000000000000000000000000000000000112040345600000000000000000000000000000000001120403456000000000000000000000000000000000011204034560000000000000000000000000000000000112040345600000000000000000000000000000000001120403456000000000000000000000000000000000011204034560000000000000000000000000000000000112040345600000000000000000000000000000000001120403456000000000000000000000000000000000011204034560000000000000000000000000000000000112040345600000000000000000000000000000000001120403456000000000000000000000000000000000011204034560000000000000000000000000000000000)))
 (.node 2 (.node 1 (.leaf 11185684480000000000000000000010508096280000112040345600000000000000000000106664506500001120403456101903789900000000001074444525000011189616640000000000000000000010517968888669112040345610739387260000000000000000000000001120403456000000000000000000001074495215867011204034560000000000000000000000000000000000112040345600000000000000000000000000000000001120403456000000000000000000001045260899000011204034561067980662000000000010613651410000112040345610836763940000000000107172034600001120403456107536129500000000001088732742000011204034561068545870000000000010559448960000112040345600000000000000000000000000000000001120403456103448998410413685081083954444000011175198720000000000000000000010824466900000)
 (.leaf 11204034561062749778000000000010629071900000112040345600000000000000000000106720753900001120403456108289351000000000001073999753000011204034561059592339000000000010834968520000112040345610914522320000000000000000000000001120403456000000000000000000000000000000000011204034561029007324105935368410995255780000112001024000000000000000000000108467279100001120403456000000000000000000001079130011867111204034560000000000000000000000000000000000112040345600000000001115991323104535567900001120403456000000000000000000000000000000000011204034560000000000000000000000000000000000112040345600000000000000000000109090465900001120403456000000000000000000000000000000000011204034560000000000000000000010654591100000))
 (.node 1 (.leaf 11204034561074744267102495368010264285710000112040345610653149641092526539107758579200001120403456000000000000000000001074335005000011204034561049441637000000000010837171120000112040345610906324310000000000105958271900001120403456107499834100000000000000000000867211204034561069398362000000000010674806970000112040345600000000000000000000107468206900001120403456110828992510918598541091283992000011204034561058490194109725393900000000000000112040345600000000000000000000106883782100001120403456000000000010335570361061413927000011204034560000000000000000000000000000000000112040345600000000001051045606106039261800001120403456104492178810445964441071077619000011204034561016742776000000000010434374250000)
 (.leaf 11204034561065309830111359817210341238220000112040345610739459861051736827107308005500001120403456000000000000000000001048848050000011204034561072441170000000000000000000000000112040345610749473340000000000105097026600001120403456109098492810472740881083480223000011204034561072457453000000000010866391180000112040345600000000000000000000000000000000001120403456000000000000000000000000000000000011204034560000000000000000000010822681420000112040345611101647631021343223000000000000001120403456000000000000000000001025732327867311204034560000000000000000000010860103290000112040345610653935991067082108105716687500001111228416110355928500000000001057470854000011204034561056548365107186361510640139330000))))))
 (.node 16 (.node 8 (.node 4 (.node 2 (.node 1 (.leaf 11204034561072251261107630118810336987630000112040345610651526781110616624104766718800001120403456107470552411025140681055859200000011204034560000000000000000000010723780420000112040345611118419161054263476105678494900001120403456000000000000000000000000000000000011204034560000000000000000000010961891148674112040345600000000000000000000108646665300001120010240000000000011104021121056870964000011204034560000000000104195906600000000000000112040345600000000001069664122000000000000001120403456108871161210913117630000000000000011185684480000000000000000000010455607260000112040345610714784010000000000104453771400001120403456108236805411056041161069388840000011204034560000000000110987609400000000000000)
 (.leaf 11204034560000000000107528365010602308480000112040345610856900431052548845000000000000001120403456108373973810670141601051873754000011204034561057528557108917623410500267780000112040345610704105231104396209107437422700001120403456105830099700000000001081321110000011204034561043139981000000000010860870220000112040345610677929170000000000104372232100001120403456000000000000000000000000000000000011204034561062666026000000000010833993140000111489843200000000000000000000106580484600001120403456108451256810929170281036579278000011204034561067177529109314572300000000000000112040345600000000001029866049107560632900001120403456109187950810807802861084414758867511204034560000000000000000000010772652400000))
 (.node 1 (.leaf 11204034561107055295104150272610471473040000112040345610827127991049391373000000000000001120403456108364072310895866461085656834000011204034561068094949000000000010632436310000112040345610538164981103643856107560838386761120403456000000000000000000001093608593867711204034561067669495000000000010794293570000112040345600000000000000000000109253700486781120403456000000000000000000000000000000867911204034561076238945111167222610673578520000112040345600000000000000000000107400026886801120403456107149014500000000001054230460000011204034560000000000000000000000000000000000112040345610862271261087235949103457918686811120403456107306669210385633570000000000000011204034560000000000000000000010958373588682)
 (.leaf 11075584000000000000000000000010647240180000112040345600000000000000000000106459906286831120403456111013083111032576661095162507868411204034560000000000000000000010287470780000109943193600000000000000000000000000000000001108344832000000000011063242261075630097000011204034561065839797110761237510793068180000112040345610939998481054625864108357407686851103626240000000000000000000001058830285000011204034561081522233000000000010344309840000112040345600000000000000000000000000000000001120403456000000000000000000000000000000000011185684480000000000000000000010720136280000112040345600000000000000000000104939747000001120403456109947422511062052131085611193000011204034560000000000110774740610652463340000)))
 (.node 2 (.node 1 (.leaf 11204034561083910342000000000000000000000000112040345600000000000000000000000000000000001120403456106851748300000000000000000000000011204034561062896092000000000010509825820000112040345600000000001102682522106950661686861120403456000000000000000000001059271036000011204034561058439912110876858810655627420000111358771210523731541110937410107613419200001120403456111509074611023059781073966409000011196170241053243187104885114610855937410000111489843200000000000000000000108218929700001120403456106482079100000000001018087554000011204034560000000000110748625810714746990000112040345610601834510000000000000000000000001120403456105744354700000000001048219412000011204034561028788549105099191910692526038687)
 (.leaf 11204034561055462141000000000010874383580000112040345600000000000000000000000000000000001120403456107534545700000000001022039630000011204034561084608731000000000010494332950000112040345600000000000000000000104030094000001120403456000000000000000000001043971373000011204034561069603380000000000010499078688688112040345600000000000000000000000000000000001120403456000000000000000000000000000000000011204034560000000000000000000010402582640000112040345610643305611116935750106615569300001120403456000000000000000000001050184289000011204034560000000000105151201310497293340000111673344010694202651052404561107462286886891120403456106995262310908668531079733954000011204034560000000000000000000010437592770000))
 (.node 1 (.leaf 11204034561067582514000000000000000000000000112040345600000000000000000000108414252100001120403456106597534000000000000000000000000011204034560000000000000000000010602438260000112040345611170917111074225427108654811100001120403456105844660700000000000000000000000011204034560000000000000000000000000000008690112040345610723818711107865659104563628400001120403456108502904611160251791087709531000011204034561062535281000000000010391288720000112040345610679109360000000000000000000086911120010240106937807910655990021059759313000011204034561045962378110771309110784136190000112040345610490004641116295070108778451700001120403456000000000000000000001084437565000011204034560000000000105891244300000000000000)
 (.leaf 11204034561064404666110779406710703192700000112040345610290419521057291764108417938186921120403456000000000010402075250000000000869311204034561072000953108675570110847426680000112040345610614065270000000000000000000000001120403456107405167400000000001053118080000011204034560000000000109943151710626723828694112040345610669259711116953051105297026600001120403456000000000000000000001066373605000011204034561108186718102479261910325419610000112040345610662186100000000000000000000000001120403456104630342511122433061084067375869511204034560000000000000000000010422944460000112040345600000000000000000000105249710600001120403456106555326800000000000000000000869611204034560000000000000000000010624572400000))))
 (.node 4 (.node 2 (.node 1 (.leaf 11204034561076293945000000000010408144240000112040345610760469001043193869108198413400001120403456000000000000000000001048802665000011204034560000000000000000000000000000000000112040345600000000000000000000000000000000001120403456109109634010928178330000000000000011204034560000000000110762113110916680058697112040345610650429381104969466109040977686981120403456110143026300000000000000000000000011204034560000000000000000000000000000000000112040345610507557631107980216105719251300001120403456107096601711167352751072512664000011204034560000000000000000000010779762460000112040345600000000000000000000104288427700001120403456000000000010793462530000000000000011204034560000000000110805636910412296320000)
 (.leaf 11204034560000000000000000000010326272130000112040345600000000000000000000103667822000001120403456107843054410526327311039611715869911204034560000000000000000000010284734100000112040345600000000001107969520103384659487001120403456000000000000000000001059037498000011204034561097822259102634954410476644710000112040345610477999530000000000000000000087011120403456000000000011076505701066466453870211204034560000000000109765019610525572878703112040345610438017410000000000103726899000001120403456109492295500000000000000000000000011204034561067567473000000000010440261348704112040345610427771231078328715000000000000001120403456000000000010250878981062285195870511204034560000000000110306535710656071118706))
 (.node 1 (.leaf 11204034561088682379000000000010726008788707112040345600000000000000000000000000000000001120403456000000000000000000000000000000000011204034560000000000000000000010656548620000112040345600000000000000000000104081176800001120403456110916766010578185681046539453870811204034561067708024109764442810589316310000112040345600000000001085685944103596718500001120403456000000000000000000001023492759000011204034561074012529000000000010445258098709112040345610631795930000000000000000000000001120403456109948410510250610541049796098000011204034561059158699000000000010242848150000112040345610880263990000000000106479789000001120403456000000000000000000001044589174000011183020440000000000105645122500000000000000)
 (.leaf 11204034560000000000000000000010355782968710112040345610644113260000000000000000000000001120403456106196790910849099970000000000000011204034561066319273000000000010757804388711112040345600000000001080865010104649226287121120403456105866239500000000001051126067000011204034560000000000000000000000000000008713111607808000000000000000000000106989722487141120403456101499794600000000001060349276000011204034560000000000000000000010506107590000112040345600000000001105884139107371526900001116733440105898638000000000001088416352000011169146340000000000000000000010497764570000112040345610758323830000000000104056175400001120403456000000000000000000000000000000000011204034561051111574000000000010459629230000)))
 (.node 2 (.node 1 (.leaf 11204034561065634494000000000010583000838715111869695100000000000000000000103451248900001120403456106842701200000000000000000000000011204034561042438223000000000000000000000000112040345600000000001059019817106199396487161120403456103499128710761216720000000000000011204034560000000000105649149100000000008717112040345600000000000000000000104598994687181120403456109753273710593402621072635068871911204034560000000000000000000010105246438720112040345600000000000000000000103107503587211120403456000000000000000000001066514740000011204034560000000000000000000010422191760000112040345600000000000000000000000000000000001120403456109372364000000000000000000000000011204034560000000000000000000000000000008722)
 (.leaf 11204034561079822806000000000010639688650000112040345600000000000000000000104637242500001120403456000000000000000000000000000000872311204034560000000000000000000000000000008724112040345600000000000000000000105722287587251120403456000000000000000000000000000000000011204034561052327318000000000000000000000000112040345600000000000000000000103975617400001120403456000000000000000000000000000000000011204034560000000000000000000000000000000000112040345610254948460000000000103471169100001120403456106958193000000000000000000000872611204034560000000000000000000010565486048727112040345600000000000000000000107390023000001120403456000000000000000000000000000000000011204034560000000000000000000000000000008728))
 (.node 1 (.leaf 11204034560000000000000000000000000000000000112040345600000000001056816968103878954100001120403456000000000000000000001065430269000011194969101114499443000000000000000000008729112040345611104107190000000000000000000000001120403456000000000000000000000000000000000011204034560000000000108607517500000000000000112040345600000000001091856708000000000000001120403456000000000000000000000000000000000011204034560000000000000000000010163430778730112040345610621781780000000000105707549300001120403456105466636400000000000000000000000011204034560000000000000000000000000000000000112040345600000000000000000000000000000087311120403456000000000000000000001051801888873211204034560000000000101688719400000000000000)
 (.leaf 11204034561076442360103606690800000000008733112040345600000000000000000000101936847000001120403456000000000000000000000000000000000011204034561084590964000000000000000000000000112040345610831349411076424920000000000000001120403456106091252210068342871075059298873411204034561060104128107786272810823377320000112040345600000000000000000000103800685787351120403456000000000000000000000000000000000011204034560000000000108765642800000000008736112040345610580094431079118083103455122700001120403456110995885910511429141082814905000011204034560000000000000000000010308148880000112040345610732302950000000000107200876800001120403456105312564500000000000000000000873711204034560000000000000000000000000000008738)))))
 (.node 8 (.node 4 (.node 2 (.node 1 (.leaf 11204034560000000000000000000000000000000000112040345600000000000000000000000000000000001120403456000000000000000000000000000000000011204034561078837694000000000010250865908739112040345600000000000000000000000000000000001120403456000000000000000000000000000000000011204034560000000000000000000000000000008740112040345600000000000000000000000000000000001120403456000000000000000000000000000000000011204034560000000000000000000000000000000000112040345600000000000000000000103210621587411120403456000000000000000000001067126879874211204034561117166114107688419710865979488743112040345600000000001054884233000000000000001120403456000000000000000000001051786950000011075584000000000000000000000010741417198744)
 (.leaf 11204034560000000000000000000000000000000000112040345600000000000000000000000000000000001120403456000000000000000000000000000000000011204034560000000000000000000000000000000000111607808010915882280000000000000000000000001120403456110080189900000000000000000000000011204034561070261474000000000010376199300000112040345610689259410000000000105000739600001120403456000000000010671995490000000000000011204034560000000000000000000000000000000000112040345600000000000000000000000000000087451120403456000000000000000000000000000000000011204034560000000000000000000000000000000000112040345600000000000000000000000000000000001120403456000000000000000000000000000000000011204034561116327873000000000000000000000000))
 (.node 1 (.leaf 11204034561108446794104392535610480539010000112040345610645465670000000000105849130300001120403456000000000000000000000000000000000011204034561057794812000000000000000000008746112040345600000000000000000000104406902887471120403456000000000000000000000000000000000011204034560000000000000000000000000000008748112040345600000000000000000000000000000000001118175232000000000000000000001059827548000011204034561052504352000000000009995801420000112040345600000000000000000000106274929000001120403456109024045210741146981012386619874911204034560000000000000000000000000000000000112040345600000000000000000000000000000000001106771968108887867500000000000000000000000011204034561107192106000000000000000000000000)
 (.leaf 11204034560000000000000000000010407276010000112040345600000000000000000000000000000087501120403456000000000000000000000000000000000011204034560000000000000000000000000000000000112040345600000000000000000000000000000000001120403456000000000000000000000000000000000011204034560000000000000000000000000000000000112040345610803259040000000000000000000000001120403456110087288600000000000000000000000011204034560000000000000000000000000000000000112040345610767235550000000000105036468287511120403456110697329200000000000000000000000011204034561109282642102382625110582342100000112040345610514817470000000000106529903400001120403456000000000000000000000000000000875211204034561048617406108552005900000000000000)))
 (.node 2 (.node 1 (.leaf 11204034561092995873102166534600000000000000112040345610982213271072078363104167481200001120403456108037470500000000001047810543000011204034561084755439106500257200000000000000112040345611068025361050018841105823388087531120403456108262204200000000000000000000000011204034561090064222000000000000000000000000112040345611201993660000000000000000000000001116078080000000000010856614070000000000000011204034561112533479107926194710556944580000112040345610603686041031503505000000000000001120403456000000000000000000000000000000000011204034561085722182103257724700000000000000112040345600000000000000000000102802976700001120403456000000000000000000000000000000000011204034561100181413107128564010383804070000)
 (.leaf 11204034561119712846104344217210586434780000112040345610738871941086967094000000000000001120403456107707382500000000000000000000000011204034561116478444109176579710361708570000112040345600000000000000000000000000000000001120403456106325728900000000000000000000000011189616641077462990110233103900000000000000112040345610906175121092468448000000000000001120403456000000000000000000000000000000000011204034561093808926103597295500000000000000111634022410873632831079855022103414771487541120403456109180641010182293721032924549000011067719680000000000000000000010089713200000112040345610770656550000000000000000000000001120403456000000000000000000000000000000000011204034561107486451107369484810576550300000))
 (.node 1 (.leaf 11204034561072553955000000000010661585588755112040345610642294780000000000000000000000001120403456109083335810216653460000000000000011204034561075835180000000000010328639710000112040345610738681651067765780000000000000001120403456106733919400000000000000000000000011204034561063854977103389258100000000008756112040345610792611840000000000103582515200001120403456000000000010945928630000000000000011204034561066042097000000000010493662120000112040345611113462720000000000000000000000001120403456107604089800000000000000000000000011204034561096448210104732106410502610350000112040345611037458601067225553104243732100001120403456110973714810348589480000000000000011204034561065937449000000000000000000000000)
 (.leaf 11204034561116884562106916667710813556978757112040345611080397210000000000000000000000001120403456107340801610783324900000000000000011120148481112014848000000000000000000000000112040345610858248000000000000000000000000001120403456107639970810273427550000000000000011204034561053306403000000000000000000000000112040345600000000000000000000000000000000001120403456106392284100000000000000000000000011204034561073827396000000000000000000000000112040345610414303821069200232000000000087581120403456110578687300000000001032740214000011204034561110123387103161087910478962370000112040345610640502640000000000000000000000001120403456000000000010458111150000000000000011204034561064789367107436342000000000000000))))
 (.node 4 (.node 2 (.node 1 (.leaf 11204034561048535332106949886600000000000000112040345611164200801026591136107440015100001120403456110495526610462070571054089244000011204034560000000000000000000000000000000000112040345610785142880000000000000000000000001120403456107767647500000000000000000000000011204034561049628703105281056910516400048759112040345610949632091032201437103115911800001120403456110341309400000000000000000000876011204034561075670923000000000000000000000000112040345610808406631057489735100954804600001120403456106251704400000000000000000000000011204034561082164051000000000010537394860000112040345610827760971048706862106572682600001120403456110437023409784338150000000000000011204034561100735545000000000000000000000000)
 (.leaf 11204034561120281961104487541710608581970000112040345600000000000000000000105502768100001120403456110694216209859634301032017959000011204034560000000000000000000010457444568761112040345611087130651056568666105879806800001120403456111291515700000000000000000000000011204034560000000000000000000000000000000000112040345600000000000000000000000000000087621120403456000000000000000000000000000000000011204034561084876021000000000000000000000000112040345610676600240000000000000000000000001120403456106883559600000000000000000000000011204034560000000000000000000000000000000000112040345611203547270000000000000000000000001120403456000000000000000000000000000000876311204034560000000000000000000000000000000000))
 (.node 1 (.leaf 11204034560000000000106597481200000000000000111044198400000000000000000000000000000000001120403456000000000000000000000000000000876411204034560000000000000000000010280558998765112040345610795482971016404011000000000087661096810496000000000000000000000000000000000011204034561077020205109572522010469419050000112040345600000000000000000000000000000000001120403456000000000000000000000000000000000011204034561074796935000000000000000000000000112040345610655017280000000000000000000000001120403456110439801900000000000000000000000011204034560000000000000000000000000000000000111411200000000000000000000000000000000000001120403456106803049100000000001024795391000011204034560000000000000000000000000000000000)
 (.leaf 11204034560000000000000000000000000000000000112040345600000000000000000000104589733400001120403456000000000000000000001048895907000011204034560000000000000000000000000000000000112040345600000000000000000000000000000000001120403456000000000000000000000000000000000011204034561108505290105755852110588189590000112040345600000000001091949403000000000000001120403456107554708200000000000000000000000011204034561050843911000000000000000000008767111712665600000000000000000000105440177800001120403456000000000000000000000000000000000011204034560000000000000000000000000000000000112040345600000000000000000000000000000000001120403456000000000000000000000000000000000011204034560000000000000000000010350092260000)))
 (.node 2 (.node 1 (.leaf 11204034561103755473105516609010496797740000112040345600000000000000000000000000000087681120403456000000000010245241830000000000000011204034560000000000000000000000000000000000112040345600000000000000000000102975294500001120403456000000000010938154481063125228000011204034560000000000000000000000000000000000112040345610835385810000000000000000000000001120403456109931749310211284751027762399000011204034560000000000000000000000000000000000112040345600000000000000000000106826955800001120403456000000000000000000001082848233000011204034561069097144106242894700000000000000112040345610557927531050552356000000000087691120403456000000000000000000001039051616000011204034561099384075000000000000000000000000)
 (.leaf 11204034560000000000000000000000000000008770112040345600000000000000000000000000000087711120403456000000000000000000000000000000000011204034560000000000000000000010759397410000111751987200000000000000000000107531712900001120403456000000000000000000000000000000000011204034561073807599000000000010676793018772112040345600000000000000000000106713770900001120403456000000000000000000001062019191000011204034560000000000000000000000000000000000112040345600000000000000000000000000000000001120403456000000000000000000000000000000000011204034560000000000000000000010181829200000112040345600000000000000000000000000000000001120403456000000000000000000000000000000000011204034560000000000000000000000000000000000))
 (.node 1 (.leaf 11204034560000000000000000000000000000000000112040345600000000000000000000000000000000001120403456000000000000000000000000000000000011204034560000000000000000000000000000000000112040345600000000000000000000000000000000001120403456000000000000000000000000000000000011204034560000000000000000000000000000000000112040345600000000000000000000000000000000001120403456000000000000000000001042940864000010779361280000000000000000000000000000008773112040345610655303920000000000106894704600001120403456000000000000000000001053930516877411204034560000000000000000000010577307370000112040345600000000000000000000000000000000001120403456106125610200000000001062723122000011204034561067681868000000000010423313630000)
 (.leaf 11204034560000000000000000000010352804310000112040345610935884921090202789108549621287751120403456000000000000000000000000000000000011148984320000000000000000000010855630130000112040345610629148490000000000105579002500001118175232106845752910440797061074023395000011204034561082175443000000000010808916260000112040345610501097400970045207109082513287761120403456000000000000000000001090950802877711204034560000000000000000000000000000000000112040345600000000001117043635105190957200001120403456000000000000000000000000000000000011204034560000000000000000000010925898980000112040345600000000000000000000000000000000001120403456000000000000000000000000000000000011204034561069890992108505365210437565410000)))))))
 (.node 32 (.node 16 (.node 8 (.node 4 (.node 2 (.node 1 (.leaf 11204034561070671669000000000010483860750000112040345610897063311073636128108329832900001120403456111107121310763263541099473317000011204034560000000000000000000010824076310000112040345610670016450000000000108285923100001120403456000000000010518207141053066136000011204034560000000000104323413410919572210000112040345610573115941097281621000000000000001120403456000000000010703847031086963885000011204034560000000000000000000010453921468778112040345600000000000000000000000000000000001120403456000000000000000000000000000000000011204034560000000000104459644400000000000000112040345600000000000000000000105089618000001120403456105878330900000000001047435280000011204034560000000000107797429610874792530000)
 (.leaf 11204034561070299785000000000000000000000000112040345610851478140000000000103859098200001117519872106392777311105417561084251629877911204034560000000000000000000010891488410000112040345610877440510000000000108140387900001120403456000000000000000000000000000000000011204034561076243718000000000010681324640000112040345600000000000000000000106914981100001120403456109015020310461332370000000000000011204034560000000000000000000010627596620000112040345600000000000000000000106418346600001120403456107506839810636805281073300727000011204034561077004074107631838510250584750000112040345610708557741108189512105289717700001120403456107243836010847485171045573693000011204034560000000000000000000010915921258780))
 (.node 1 (.leaf 11204034560000000000000000000010484313840000112040345600000000000000000000108943039000001105199104000000000010828300421024122759000011204034561074585668111725061110826728900000112040345600000000000000000000000000000000001120403456105511585910336241450000000000000011204034561091184059107879260510544575070000112040345610680329820000000000103394559700001120403456000000000000000000000000000000000011204034560000000000109540330700000000000000112040345600000000001091513719000000000000001120403456108450066510572649201076626031000011204034561065711493110237277210502236850000112040345610721367230000000000108853846300001120403456108784601400000000001083006795000011204034561065424150000000000010364682940000)
 (.leaf 11204034561087019546107621688310748174420000112040345610703456461035556880106533650600001120403456107364418111065054721003323698000011204034561105871868000000000010229197390000112040345610728316181058831912000000000000001120403456106761568200000000001078975982000011204034561110707421108578409010807823788781112040345600000000000000000000109495087787821120010240000000000000000000001073779643000011204034560000000000000000000000000000008783112040345610939773261076478188107553925900001120403456107740045700000000001061483104000011204034561042138515111089329110687309498784112040345600000000000000000000109155482387851120403456107610146410848189810000000000878611204034561080691245110158733610170009840000)))
 (.node 2 (.node 1 (.leaf 11204034560000000000000000000010870682838787112040345610674502510000000000106017835900001120403456000000000000000000000000000000000011204034561069169940107010536210107268470000112040345611115369881084249185108493759387881120403456000000000000000000001087262493878911204034561054997681000000000010667389498790112040345600000000000000000000000000000000001120403456105964611011109154951067702425000011204034561104136090107390246610873864758791112040345600000000000000000000000000000000001120403456000000000000000000000000000000000011204034561066759046000000000000000000000000112040345610768479751111648292109066406400001120403456106874045200000000001044806752000011204034560000000000000000000000000000000000)
 (.leaf 11204034561069276283000000000000000000000000112040345610678679110000000000105135586400001120403456000000000010990021251083162733879211204034561068993016000000000010351226380000112040345611181662621093515660107977357200001116733440000000000010580014401071871948000011204034561039956135110078858410618747890000112040345610932725421110352173105354805000001120403456000000000011079227541058839386000011204034561064160977000000000000000000000000112040345610693389200000000000000000000000001109917696105394648800000000001054762819000011204034561058533160000000000000000000000000112040345610642424300000000000000000000000001120403456000000000010588369451059158363879311204034561055762118102785278300000000008794))
 (.node 1 (.leaf 11204034560000000000110213637110739200210000112040345600000000000000000000000000000000001120403456000000000000000000000000000000000011204034561077392756107227130110435925840000112040345600000000000000000000103807280300001120403456107461302310250342110000000000000011204034560000000000000000000010535809370000112040345610685636291116566900108070937900001120403456106353876010438918011074728207879511204034560000000000000000000000000000000000112040345600000000000000000000106603781100001120403456000000000000000000001060813093000011204034561066771990000000000010265486750000112040345611176886231066891687107465752600001120403456105918849500000000000000000000000011204034561050103431110754718010835118650000)
 (.leaf 11204034561066369261110759006710690238468796112040345610917196611115762550108980218000001120403456106354228300000000000000000000000011204034560000000000000000000000000000000000112040345600000000000000000000106857647600001120403456108241895800000000000000000000879711204034560000000000110074999610538520020000112040345610595381491116473262108442243400001120403456104190175510901960790000000000000011204034561058786849110771678710770417280000112040345600000000001048441782106320774087981120403456105885434311166675631079984744000011204034561061886473107493384510853078620000112040345600000000001035167649000000000087991120403456106774855810915700280000000000000011204034560000000000109808703210845259658800))))
 (.node 4 (.node 2 (.node 1 (.leaf 11204034561056776368000000000010019098740000112040345600000000000000000000106863905300001120403456107378858600000000000000000000000011204034561068399203000000000010663854228801112040345610637682391114570464108434785800001120403456107217620800000000001038576689880211204034561059231361000000000010193797910000112040345610907388261032295390104897683000001120403456107815816600000000000000000000000011175198721094520208107895031110176012148803112040345600000000000000000000000000000000001120403456107418637800000000000000000000000011204034561072663183111235083810850039790000112040345610524950911115520709107436677888041120403456110588497700000000000000000000000011204034560000000000000000000000000000000000)
 (.leaf 11204034561061897495110794909910276309630000112040345600000000000000000000108581693288051120403456000000000010250878980000000000000011204034560000000000105339777210672294010000112040345600000000001108045254103608140500001120403456000000000011075440611083234439000011204034560000000000110953226610862191078806112040345610647778080000000000103230070300001120403456000000000000000000000000000000000011204034560000000000000000000010539027690000112040345610720602690000000000000000000088071120403456109704364100000000000000000000000011204034560000000000103793253400000000000000112040345600000000001089195108104120690200001120403456000000000011017704181040634196000011204034561083655850000000000010608854140000))
 (.node 1 (.leaf 11204034560000000000000000000010315493620000112040345600000000000000000000000000000000001120403456000000000000000000001049069714000011204034561100313271105603179500000000008808112040345600000000000000000000000000000000001120403456106245035510465627340000000000000011204034560000000000105154892310486945650000112040345609838932560000000000000000000088091120403456110197794800000000000000000000000011204034561064571129000000000000000000000000112040345600000000000000000000102018088988101120403456000000000010386438880991056948881111204034561087871943000000000010723526310000112040345610919794670000000000000000000000001120403456105963102810799707850000000000000011204034561069184562000000000010681718908812)
 (.leaf 11204034560000000000000000000010596081180000112040345600000000001076007168000000000088131120403456000000000000000000001065514164000011181752320000000000000000000010847869560000112040345610569200481074692673107954384500001120403456000000000000000000001045956476881411204034560000000000000000000010348281938815112040345600000000000000000000103692989300001120403456106799155900000000001032163199000011204034560000000000000000000000000000008816110205337600000000000000000000107233994888171120403456000000000000000000001055579919000011204034560000000000109977618410625804840000112040345600000000000000000000000000000088181120403456108369067310354897721042057525000011204034560000000000000000000000000000008819)))
 (.node 2 (.node 1 (.leaf 11204034560000000000000000000000000000000000112040345600000000000000000000000000000000001120403456000000000000000000001058576814000011204034560000000000000000000000000000000000112040345611022839550000000000000000000000001120403456000000000000000000000000000000882011204034560000000000000000000010323516718821112040345600000000000000000000101902287500001120403456000000000000000000000000000000000011204034560000000000000000000010421736410000112040345600000000000000000000000000000000001103626240000000000000000000001034782878000011204034560000000000000000000000000000008822112040345600000000000000000000104338412400001120403456000000000000000000000000000000000011204034560000000000000000000000000000000000)
 (.leaf 11204034561067034805000000000000000000000000112040345600000000000000000000000000000000001120403456105057014000000000000000000000882311204034560000000000000000000010198300098824112040345600000000000000000000000000000088251120403456000000000010714332790000000000000011204034560000000000000000000010722488060000112040345600000000000000000000000000000000001120403456000000000009913455610000000000000011204034560000000000099692901800000000008826112040345600000000000000000000104559351988271120403456000000000000000000001044434971882811204034561067551895000000000000000000000000112040345610591389860000000000107417733200001120403456000000000000000000000000000000000011204034560000000000000000000010502973788829))
 (.node 1 (.leaf 11204034561075923344000000000000000000000000112040345600000000001039798161000000000000001120403456111366626010325235601032520093000011204034560000000000000000000000000000000000112040345600000000001067877348103166417988301120403456107537595810739888690000000000000011204034560000000000107178979500000000000000112040345600000000000000000000000000000000001120403456106945218310242289041074148988883111204034561070249210000000000010658093018832112040345600000000000000000000000000000088331120403456000000000000000000000000000000000011204034560000000000109212210310429010020000112040345610771276721104576564104426642200001120403456000000000000000000000000000000000011204034561083632469000000000010471208550000)
 (.leaf 11204034561054242874000000000000000000008834112040345600000000000000000000000000000088351120403456000000000000000000000000000000000011204034560000000000000000000010331547710000112040345610695051410000000000102794261700001120403456000000000000000000001068723759000011204034560000000000101640401110162008528836112040345600000000000000000000000000000088371120403456110318330410721932871045406309883811204034560000000000000000000000000000000000112040345600000000000000000000000000000000001120403456000000000000000000000000000000000011204034561097861428105814404610732551938839112040345600000000000000000000101716131300001120403456000000000000000000000000000000000011204034560000000000000000000000000000000000)))))
 (.node 8 (.node 4 (.node 2 (.node 1 (.leaf 11204034560000000000000000000000000000000000112040345610999235570000000000105529622900001120403456107430608000000000001021558528000011204034561068098195109123416910646269550000112040345600000000000000000000000000000000001120403456000000000000000000000000000000000011204034560000000000000000000000000000000000112040345600000000000000000000000000000000001120403456106554359500000000000000000000884011204034560000000000000000000000000000000000112040345611085745051042381852000000000088411120403456110268766810422342121059732831000011204034561064055918000000000010086105380000112040345600000000000000000000000000000000001120403456105311839800000000001032159556884211204034560000000000000000000000000000000000)
 (.leaf 11181752320000000000000000000010753695970000112040345600000000000000000000000000000000001120403456107774138200000000001066431278000011185684480000000000000000000010835224540000112040345600000000000000000000000000000000001120403456105142054300000000001057251052000011204034560000000000000000000000000000000000112040345610652364630000000000105322830900001120403456110887942000000000000000000000000010779361280000000000000000000010078652610000112040345600000000000000000000000000000000001120403456000000000000000000000000000000000011204034561080644772000000000000000000000000112040345600000000000000000000000000000000001120403456000000000000000000000000000000000011204034560000000000000000000000000000000000))
 (.node 1 (.leaf 11204034560979172550000000000010277385088843112040345610908416091039408929105520361800001120403456110752448900000000000000000000000011204034560000000000000000000010485300958844112040345611203862681019786297102400410700001120403456108255212510320537981042079996884511204034560000000000108226779510756343510000112040345610990120151043750873104510472600001120403456109803330200000000000000000000000011204034561081612842000000000000000000000000112040345611076216421091952234103909417188461120403456108523821210288728381073351483000011204034561117995166106371911510364406588847112040345611202820271051485169000000000000001120403456106442637500000000000000000000000011204034561089430595000000000000000000008848)
 (.leaf 11204034560000000000000000000000000000000000112040345600000000001097344221104766041700001120403456110855060110384157180000000000000011204034561101369628101069975710350749580000112040345610735839590000000000107072732100001120403456111251565310900377441040549795000011204034561082897411000000000010819898890000112040345600000000000000000000000000000000001120403456108441910010995820920000000000000011204034560000000000000000000000000000000000112040345610901318761033919424104893295100001120403456109933915310432341340000000000884911204034561066664884000000000010315270190000112040345611108647931065123368106788021400001116078080107596585410422207911078341228000011204034561066815954000000000000000000000000)))
 (.node 2 (.node 1 (.leaf 11204034561059486022103026870200000000000000112040345610651389370000000000000000000000001120403456108424704100000000000000000000000011204034561075341859000000000010487249120000112040345600000000001078556046000000000000001120403456106544401400000000001040843288000011204034561117700045000000000000000000000000112040345610743743880000000000000000000000001120403456109765040410658624050000000000000010863247361052534819000000000000000000000000112040345611058863640988540410105608599300001120403456111621108810731076450000000000000011204034561067090446000000000000000000000000112040345611099227781057652474107386433588501120403456108656009900000000000000000000000011204034561065566748000000000000000000000000)
 (.leaf 11204034561075221700000000000000000000000000112040345610646436070000000000000000000000001120403456110173108610168871941031997927000011204034561049534113098252745600000000008851112040345610717301440000000000000000000000001120403456102527714510666492560000000000000011204034561079657055107979210810252160730000112040345611048088751026322701103304705500001120403456107496886310990308561062090906000011204034561104015505105724311010649551790000112001024011161605110000000000104221110700001120403456000000000000000000000000000000000011204034561077818415000000000000000000000000112040345610756728900000000000000000000000001120403456107692625700000000000000000000000011204034561058198774105694783110658701888852))
 (.node 1 (.leaf 11204034561105419480000000000000000000008853112040345610853997540000000000000000000000001120403456107782141410616974611032353425000011204034561080223009000000000010740230250000112040345610854469160000000000106717141300001120403456107756692000000000000000000000000011204034561119305773100726378310263311700000112040345610603287420000000000000000000000001120403456110813398510483948061044229837000011204034561016890416000000000010504343000000112040345611087607091059439247104689425900001120403456000000000000000000001059439473885411204034561111466716104967994110583538130000112040345611148941121060856922107441214600001120403456103990137410410195421031320269000011204034561070762635000000000000000000000000)
 (.leaf 11204034560000000000000000000000000000000000112040345600000000001081419078102000762100001120403456000000000010702345470000000000000011204034561093071140000000000000000000000000111961702410589908760000000000106582504500001120403456000000000000000000000000000000000011204034561116979793000000000000000000000000112040345600000000000000000000000000000088551120403456104863364700000000000000000000885611204034560000000000000000000000000000000000112040345610887833851102713245103334212900001120403456107461186109532679911043075810000011204034561113219360102374572000000000000000112040345600000000000000000000104013909500001120403456110097578210160282011049236011000011204034560000000000000000000000000000000000))))
 (.node 4 (.node 2 (.node 1 (.leaf 11204034561068078037106121092110289042600000112040345600000000000000000000000000000000001120403456000000000000000000001049154366000011204034560000000000000000000000000000000000112040345600000000000000000000103752117300001120403456000000000000000000000000000000000011204034561071685449000000000000000000000000112040345610593027810000000000104217551300001120403456106483904500000000000000000000000011204034560000000000000000000000000000000000112040345600000000000000000000000000000000001120403456000000000000000000000000000000885711204034560000000000000000000000000000000000112040345600000000000000000000000000000000001120403456107524609410412477121051018567885811204034560000000000000000000000000000000000)
 (.leaf 11185684480000000000108150296410415965680000109051904000000000000000000000000000000000001120403456000000000000000000000000000000000011204034560000000000000000000000000000000000110913126400000000000000000000104483340800001120403456109016864800000000000000000000000011204034561083734374000000000000000000000000112040345600000000000000000000103412176600001120403456109324448200000000001042042256000011204034560000000000000000000000000000008859112040345600000000000000000000000000000088601120403456000000000000000000000000000000886111204034560000000000000000000000000000000000112040345600000000000000000000105861345700001120403456000000000000000000000000000000000011204034561065070654000000000010621817048862))
 (.node 1 (.leaf 11204034560000000000000000000000000000000000112040345600000000000000000000000000000000001120403456000000000000000000000000000000000011204034560000000000000000000000000000000000112040345600000000000000000000000000000000001120403456000000000000000000000000000000000011204034560000000000000000000000000000000000112040345600000000000000000000000000000000001120403456000000000000000000000000000000000011204034560000000000000000000000000000000000112040345600000000000000000000000000000000001120403456000000000000000000000000000000000011204034560000000000000000000000000000000000112040345600000000000000000000000000000000001120403456000000000000000000000000000000000011204034561078879947000000000000000000000000)
 (.leaf 11204034560000000000000000000010430784318863112040345600000000000000000000000000000000001120403456107020839100000000001058713583000011204034560000000000000000000010805104930000112040345610757258560000000000106802510200001120403456000000000000000000000000000000000011204034561059584588000000000010520045210000109051904010417294190000000000105356703300001120403456107841949600000000000000000000000011204034560000000000000000000010690023788864112040345600000000000000000000000000000000001120403456000000000011170410661051061048000011204034560000000000000000000010396921870000112040345600000000000000000000000000000000001120403456000000000000000000000000000000000011204034561067320168110803374610756835360000)))
 (.node 2 (.node 1 (.leaf 11204034561077223956000000000010289044470000112040345610982936831076970599109064857800001120403456110879146610813192541097717193000011181752320000000000105123351110883655840000112040345610664835470000000000107548895800001120403456000000000000000000000000000000000011204034561094991066105593113110986212990000112040345610360404671090239280000000000000001120403456000000000010646049521082211533000011204034560000000000000000000010857960438865112040345600000000001048039129000000000000001120403456000000000000000000001040751628000011204034561080833843000000000010616854650000112040345600000000000000000000106224730600001120403456105824246100000000001029813595000011204034560000000000110659696110916554210000)
 (.leaf 11193548800000000000000000000010490218720000112040345610755645510000000000106013268400001120403456106725838610804543881058733643000011171266561074494421111119242410637037558866112040345600000000000000000000108410750600001119617024108975349100000000001064923826000011204034561074788664110222555210381654640000112040345600000000000000000000000000000000001120403456107406382100000000001070720948000011204034561066229985000000000010461897620000112040345610789458141081934139104385942800001120403456107541671011139191411060446781000011204034560000000000000000000010826681918867112040345610805613261081591464000000000000001120403456000000000000000000001086994341000011204034561099378497110878940200000000000000))
 (.node 1 (.leaf 11204034560000000000000000000010698358140000112040345600000000000000000000000000000000001120403456106816837410957739790000000000000011204034560000000000104696538700000000000000112040345600000000001056471358000000000000001120403456000000000000000000000000000000000011204034561036538951108927123510368370400000112040345610849784901027235381108188399700001120403456000000000010907227781076652265886811204034561075424935110565906210592226590000112040345610652975830000000000108329015900001120403456106544060900000000001051069167000011204034561062127813000000000010515576380000112040345610675715920000000000107511911800001120403456000000000000000000001076310526886911204034561070810014107417467610838575470000)
 (.leaf 11204034560000000000106499921700000000000000112040345610684713450000000000107444746000001120403456109923695910902613001088156177887011204034561102375283108006347910840789450000112040345610642863190000000000105202982800001120403456102309771710917966251055995907887111204034560000000000000000000010879319088872112040345610784524851089787344000000000000001120403456106938545210507301950000000000000011204034561085095964000000000010509971390000112040345600000000001025087898000000000000001120403456108005443211063487101052346401000011204034560000000000000000000010590724218873112040345611093128221078557724104997870600001120403456000000000000000000000000000000000011204034561061511284110277794210317397698874))))))
 (.node 16 (.node 8 (.node 4 (.node 2 (.node 1 (.leaf 11204034561033282427000000000010775310860000112040345600000000000000000000109165169700001120403456109674098810809061151090573122000011204034561045089292000000000010455892510000112040345600000000000000000000000000000000001120403456106613458100000000000000000000000011204034561039551603106724149200000000008875112040345611037436261092209449109086042000001120403456107545524800000000000000000000000011204034560000000000000000000000000000000000112040345610675121921044442094000000000000001120403456106599090100000000000000000000000011204034561050051355109790856510262265728876111122841611034515971095426271107869603900001120403456106516502610865789111061821910000011204034561060488142110531355610651451390000)
 (.leaf 11204034561069637337111125533810516680360000112040345610637275040000000000000000000000001120403456107594224800000000000000000000000011204034561074129051000000000000000000000000112040345600000000000000000000000000000000001120403456106957084000000000001066079451000011204034561062778215104134166400000000008877112040345610657808341106073512108230801500001120403456000000000000000000000000000000000011204034560000000000000000000000000000000000111896166400000000001090567274103189589800001120403456102366438410321074851082542264887811204034561076623869103018817110804704798879112040345600000000001072478500106015642500001120403456000000000000000000001040315702000011204034561055333494000000000010905311110000))
 (.node 1 (.leaf 11204034560000000000000000000010468123530000112040345610693016000000000000102424143200001120403456107209196111087896641071794802000011204034561054065841110628511410744035678880112040345611168368641066414375107831670800001120403456105802380400000000000000000000000011204034560000000000000000000010677523790000112040345610831993380000000000103775958288811120403456107914000611168033011067575411000011204034561099376087102032316810516962740000112040345600000000000000000000000000000000001120403456000000000009666092340000000000000011204034561041324753111666765510810517530000112040345610588089271107879815106660822700001120403456104281537510593184511075773540888211204034561074076093111613008910897651440000)
 (.leaf 11204034561041153357106913144510882402730000112040345610626591980000000000101032662900001120403456000000000000000000001065305523000011204034560000000000000000000000000000008883112040345610749369661095050776000000000000001120403456107049394010232759581077328628000011204034560000000000110129436410813006018884112040345610657922341115915144107762958200001120403456107506607900000000000000000000000011204034561111975012105339106110586859840000112040345610779338500000000000102453068000001120403456000000000000000000001047890093000011004805121057012859107820791910667452668885112040345611116308631038482827104388974200001120403456000000000000000000000000000000000011204034561067138740000000000000000000000000)))
 (.node 2 (.node 1 (.leaf 11204034561069893022111564530610737864950000112040345610742320421116382691108330915688861120403456109406081210237188771025811129000011204034560000000000000000000000000000000000112040345610663945191107963963000000000000001120403456000000000000000000001058630297000011204034560000000000109771625610808622258887112040345600000000000000000000107025813988881120403456102367968510578152131065910158000011204034560000000000110804887109525847960000112040345610438203300000000000000000000000001120403456000000000000000000000000000000000011204034561092007736000000000010398407700000112040345610978999140000000000000000000000001120403456105879413010793294760000000000888911204034560000000000105833027310404078110000)
 (.leaf 11204034560000000000107993387510472535720000111817523210743649720000000000107307960700001120403456000000000000000000001031226823000011204034560000000000000000000000000000000000112040345600000000000000000000103679291988901120403456108910774710533642170000000000889111204034561092647300000000000010354884210000112040345610596446341072784684000000000000001120403456000000000000000000001036944356000011204034561065515049000000000010200773070000112040345610823582710000000000000000000000001120403456000000000000000000001020455109000011204034560000000000000000000010383251758892112040345610531835271073892400000000000000001120403456107334068100000000001061045068889311204034561095579024000000000010603693960000))
 (.node 1 (.leaf 11204034560000000000110103578510764976798894112040345600000000000000000000104239024988951112801280000000000000000000001091991127889611204034560000000000000000000000000000008897112040345610740742140000000000000000000000001120403456000000000000000000001058711374000011204034561056899512107486673610742499178898112040345610640514380000000000000000000000001120403456000000000000000000000000000000000011204034560000000000000000000010417899498899112040345600000000001016833507104944591600001120403456000000000000000000000000000000000011204034560000000000108494648800000000008900112040345610468404310000000000104267467089011120403456000000000000000000000000000000890211204034560000000000000000000009938305498903)
 (.leaf 11204034560000000000000000000000000000000000112040345600000000000000000000000000000000001120403456110914372300000000000000000000000011204034560000000000000000000010582541590000112040345600000000000000000000000000000000001120403456000000000000000000001076871998000011204034560000000000000000000000000000000000112040345600000000000000000000000000000000001120403456000000000000000000000000000000000011204034560000000000107988144610240820338904112040345600000000000000000000099592892689051120403456000000000000000000000000000000000011204034560000000000000000000000000000000000112040345610741767190000000000102396289500001120403456105028975900000000000000000000890611204034560000000000000000000010739354998907))))
 (.node 4 (.node 2 (.node 1 (.leaf 11204034560000000000000000000000000000000000112040345600000000001083263733101894511200001120403456000000000000000000001039502772890811204034561073816332000000000010270444400000112040345600000000001065964746000000000000001120403456000000000000000000001034900634890911204034560000000000000000000010387405060000112040345610718140971084165089102622571889101120403456000000000000000000000000000000000011204034561079121925000000000000000000000000112040345600000000000000000000000000000000001120403456000000000000000000001042372833891111204034561094283662000000000000000000000000112040345600000000000000000000000000000000001120403456000000000000000000000000000000000011204034560000000000107247850000000000000000)
 (.leaf 11204034561079158545103464420010813179970000112040345610585872841070164083104295834989121120403456000000000000000000001056002864000011204034561049448482000000000000000000000000112040345610690422410000000000105850858400001120403456000000000010914397950000000000000011204034560000000000000000000010178037948913112040345600000000000000000000000000000000001120403456000000000000000000001017891612000011196170241064324219110849787210506353640000112040345610852491950000000000105513852800001120403456000000000000000000000000000000891411204034560000000000000000000000000000000000112040345600000000000000000000000000000000001120403456000000000000000000000000000000000011204034560000000000102530264600000000008915))
 (.node 1 (.leaf 11204034561058396292000000000000000000008916112040345600000000000000000000000000000000001120403456106185070400000000001030425593000011204034561108003674107181244410830077248917112040345600000000000000000000000000000000001120403456000000000000000000000000000000000011204034560000000000000000000000000000000000112040345600000000000000000000000000000000001120403456000000000000000000000000000000000011204034561087979362107562968010233692480000112040345610801844931088715699106707128700001120403456110128494000000000000000000000000011204034560000000000000000000000000000000000112040345610778506441085288743105873881900001120403456000000000000000000000000000000000011204034561043276480000000000000000000008918)
 (.leaf 11204034561071868950000000000000000000000000112040345600000000000000000000000000000000001120403456000000000000000000000000000000000011204034561106990556104637482910494051890000112040345610681574350000000000000000000000001120403456105970028400000000000000000000891911204034560000000000000000000000000000000000112040345610885508820978433815105600113200001120403456000000000000000000000000000000000011204034560000000000000000000010668622620000112040345600000000000000000000000000000000001120403456107397584900000000000990903296000011204034561082741634000000000000000000000000112040345600000000000000000000000000000000001120403456000000000000000000000000000000000011204034560000000000000000000000000000000000)))
 (.node 2 (.node 1 (.leaf 11204034560000000000000000000010729458588920112040345600000000000000000000000000000000001120403456107308483710216653460000000000000011204034560000000000000000000010435450288921112040345611199936280000000000000000000000001120403456109699476110784205701060288622000011204034561116268205105608548210623475260000112040345610901759230000000000000000000000001113587712000000000010788689411050430823000011204034561092500202000000000000000000000000112040345610886703730000000000000000000000001120403456110945863911127910040000000000000011204034561111417542101209562210235291070000112040345610910703851071075086107404063989221120403456111781448510100555121010386398000011204034561064220418000000000000000000000000)
 (.leaf 11204034561099629745108019643800000000000000112040345600000000001095628646000000000000001120403456106066410200000000001085574150000011204034561051339476000000000000000000000000112040345611006749781044938700000000000000001120403456109889640510763066411052516504000011204034561084631865000000000010841129400000112040345600000000000000000000000000000000001115684864104482575500000000001059532121892311204034561084526810000000000000000000000000112040345600000000000000000000000000000089241120403456111161453210656560450000000000000011204034561064199011000000000000000000000000112040345610800575990000000000000000000000001120403456107838881510871677911015197332000011204034561068812418000000000000000000000000))
 (.node 1 (.leaf 11204034561078228471000000000000000000000000112040345610865428150000000000103111718600001120403456106765645910342281251035142242892511204034560000000000110119108000000000000000112040345611039018291042670420106000340300001120403456108731351600000000001077136534892611204034561077308287000000000000000000000000112040345610997483761054119192102363220000001112801280110126897810802052461049868190000011204034561115354477107723106510919689198927112040345609792584490000000000104036207300001120403456108534333600000000000000000000000011204034561060309767000000000000000000000000112040345610553490961044421961000000000000001120403456107593536100000000000000000000000011204034561114910775102782593910410383920000)
 (.leaf 11204034561077777109000000000000000000000000112040345610676192470000000000000000000000001120403456107844028810655016940000000000000011204034560000000000000000000000000000000000112040345610988283651029087586105070936400001120403456110076002310327383081044688520000011204034561096677940108598520710599640040000112040345600000000000000000000000000000000001120403456107332652100000000000000000000000011204034561077675217000000000000000000000000112040345610741587380000000000103004134500001120403456111285042200000000000000000000892811204034561100222551106566695010786254258929112040345610829930450000000000000000000000001120403456107761633300000000001053619033000011204034561076563634109091456310672932350000)))))
 (.node 8 (.node 4 (.node 2 (.node 1 (.leaf 11204034561118069097104319386910470776950000112040345610172034110000000000000000000000001120403456109514454210345502471045480405000011204034561109584961101402835710191666060000112040345610690798890000000000000000000000001120403456000000000000000000001024260686000011204034561100281381104503936310530982820000112040345611122487441053491724106602871600001120403456109461380810736562601067476820000011204034561111610014105059597700000000000000112040345600000000000000000000000000000000001120403456000000000000000000000000000000000011204034560000000000108438445110685609228930112040345610872278890000000000000000000000001120403456000000000000000000000000000000000011204034561120179299105389773310678829050000)
 (.leaf 11204034561068787562000000000000000000008931112040345610745416740000000000103413604600001120403456000000000000000000001055910671000011204034560000000000000000000000000000000000112040345600000000000000000000000000000000001120403456110866164500000000000000000000000011185684480000000000000000000000000000000000112040345610443212980000000000000000000000001120403456000000000000000000000000000000000011204034560000000000000000000000000000000000112040345600000000000000000000106536480000001120403456000000000000000000000000000000000011204034561084612158000000000000000000000000112040345610834486070000000000102848931600001120403456000000000000000000000000000000893211204034560000000000000000000000000000000000))
 (.node 1 (.leaf 11204034560000000000106999798800000000000000112040345600000000000000000000000000000000001120403456000000000000000000000000000000000011204034560000000000000000000000000000000000112040345600000000000000000000000000000000001120403456000000000010997129541079436686000011204034560000000000106609644700000000000000112040345600000000000000000000000000000000001120403456109071885300000000000000000000000011204034561091134068000000000000000000000000112040345600000000000000000000000000000089331120403456110091442600000000000000000000000011204034560000000000000000000000000000008934112040345600000000000000000000000000000000001120403456000000000000000000001076242316000011204034560000000000000000000010549492920000)
 (.leaf 11204034560000000000000000000000000000000000112040345600000000000000000000000000000000001120403456000000000000000000000000000000000011204034560000000000000000000000000000000000112040345600000000000000000000107543968600001120403456000000000000000000000000000000000011204034560000000000000000000000000000000000112040345600000000000000000000000000000000001120403456000000000000000000000000000000000011204034560000000000000000000000000000000000112040345600000000000000000000000000000000001120403456000000000000000000000000000000000011204034560000000000000000000000000000000000112040345600000000000000000000000000000089351120403456000000000000000000000000000000000011204034561082324880000000000010689538040000)))
 (.node 2 (.node 1 (.leaf 11204034560000000000000000000010685057570000112040345610760517820000000000105423636000001120403456000000000000000000000000000000000011204034561069270688000000000010661773010000112040345610732791840000000000104768324000001120403456000000000000000000000000000000000011204034560000000000000000000010789839920000112040345600000000001117043884105074664600001120403456000000000000000000001057485345000011204034561095049093109173392010909347720000112040345610535779260000000000107672329200001120403456000000000000000000000000000000000011204034561067841202108825285810683511270000112040345600000000000000000000000000000000001120403456105709630910442407670000000000000011204034561112846338107476481511010031810000)
 (.leaf 11204034560000000000102514158500000000000000112040345600000000001093969065106518189900001116340224000000000000000000001073008450000011204034561081003364000000000010569458770000112040345600000000000000000000000000000000001120403456000000000000000000000000000000000011204034561069668962104344888310386780000000112040345610936461881090760527108434507400001120403456106644782010869907911042787816000011204034561066941138000000000010733778580000111935488010762195551113877198108465561589361120403456107158498711077021601071731341000011204034560000000000000000000010771934030000110362624010711628720000000000104603396900001120403456107249937910524146271051112567000011204034561015093509000000000010615764410000))
 (.node 1 (.leaf 11204034561069905370111641075410832093060000112040345600000000000000000000108029514389371120403456000000000000000000000000000000000011075584000979086650000000000010657997430000112040345610961408301102690071106460796800001120403456000000000010286580890000000000000011204034561082152041109460030810418206790000112040345600000000000000000000108206595900001120403456000000000000000000001070079849000011204034561078673080108694968710404903220000112040345610682593491095365034105384062900001120403456000000000010552868860000000000000011204034561073496097000000000000000000000000112040345610767915021104465520000000000000001120403456106837481800000000001090761351000011204034561084477879000000000000000000000000)
 (.leaf 11204034560000000000000000000010639908920000112040345610665709990000000000104774845400001120403456000000000000000000001050968176893811204034561092614438109651752410711986640000112040345610739241080000000000106028841100001120403456107829254310932352711084786398893911204034561079675082109620179800000000000000112040345610582515040000000000109506803600001120403456000000000011023640171064663953000011204034561079314754109516664300000000000000112040345610664049210000000000104958553800001120403456000000000010333959750000000000000011204034560000000000107787531100000000000000112040345600000000000000000000108427388589401120403456109900792611048268071065216572000011204034561069747790000000000010604333670000))))
 (.node 4 (.node 2 (.node 1 (.leaf 11204034560000000000000000000010907682950000112040345611120397771081879193109198344100001120403456106455876400000000001049266495000011204034561103615186109748420610852938158941112040345600000000000000000000000000000000001120403456106058311800000000000000000000000011204034560000000000000000000000000000000000112040345610664085620000000000105765492400001120403456000000000010853797591033600317894211204034560000000000000000000010577671628943112040345610555122380000000000000000000000001120403456108259155611091516331057090896000011204034561066587759000000000000000000000000112040345600000000001045784271107462380500001120403456106761030500000000000000000000000011204034561068051101101338411200000000008944)
 (.leaf 11204034561074555775000000000000000000000000112040345600000000000000000000000000000000001120403456000000000000000000000000000000000011204034561104959971107195337310800867560000112040345610744859561102478416108365104500001120403456000000000010442676110000000000000011204034560000000000103833518710868865288945112040345600000000000000000000000000000000001120403456097358909210888257991028798470000011204034561083527945000000000000000000000000112040345610707378801116365731105695808600001120403456000000000011049281001085469946894611204034561065016581000000000010854155600000112040345600000000000000000000106126671100001120403456000000000000000000000000000000894711200102401116342693106382648910718494770000))
 (.node 1 (.leaf 11204034561056497329000000000010217968280000112040345610599051670000000000106073117300001120403456000000000000000000001011446411000011204034561043053209102624217010252143950000112040345610562992571116939197106607076600001120403456110475161311133439181065386697000011204034561089261888105593448710720525130000112040345610616331371107426987108591507600001120403456104852560110746918341069507759894811204034561069141050111657871010807436940000112040345610707872721039543147107407572400001120403456105942164800000000000000000000000011204034560000000000000000000010516095720000112040345600000000000000000000102704801789491120403456106676407911167340691074552697000011204034561067465920000000000010603741960000)
 (.leaf 11204034561075924812000000000000000000000000112040345610733613591102349179000000000000001120403456000000000011006738691053084521895011204034561069537663111682714310670871480000112040345611020083891015437643102023270800001120403456000000000000000000000000000000000011204034561062601618000000000000000000000000112040345600000000000000000000000000000000001120403456105718212511167913481075200207000011204034561099549730102672535410430927240000112040345600000000000000000000000000000000001120403456107032260211078931840000000000000011204034560000000000000000000010662610638951112040345600000000000000000000104204260600001120403456102575388610638399110000000000000011204034560000000000106867174910941950638952)))
 (.node 2 (.node 1 (.leaf 11204034561065952507000000000000000000000000112040345600000000001107435559104506189300001120403456000000000000000000001046441458000011204034560000000000000000000010382633510000112040345600000000001107700692000000000000001120403456109985836200000000000000000000000011204034560000000000104923031110120932958953112040345600000000000000000000103223296889541120403456107368645910441870800000000000895511204034560000000000000000000000000000000000112040345610925315680000000000000000000000001120403456106372986900000000001051444832000011204034560000000000000000000010613392110000112040345610952890011091465485103917830500001120403456106960843800000000000000000000000011204034561064449830107000218300000000000000)
 (.leaf 11204034560000000000000000000010656944340000112040345600000000000000000000106490673889561120403456000000000010911962101066786772895711204034561083105132000000000010776067170000112040345611140991331065583064108833490200001120403456107255797300000000000000000000000011204034560000000000000000000010742703710000112040345610809832521091928850000000000000001120403456105394846700000000000000000000895811204034561062956826000000000010281497160000112040345600000000000000000000000000000000001120403456107389872510540889931084506051000011204034560000000000106794865100000000008959110991769610515904970000000000000000000000001120403456000000000000000000001050779742000011204034560000000000000000000010242264078960))
 (.node 1 (.leaf 11204034561050568663000000000010697426430000112040345600000000000000000000000000000000001120403456000000000000000000000000000000000011204034561117076953000000000000000000000000112040345610697039840000000000105968896000001120403456000000000000000000001068686257000011204034560000000000000000000000000000000000112040345600000000001039328399103099528900001120403456000000000000000000000000000000000011020533760000000000000000000000000000000000112040345610630860940000000000000000000000001120403456000000000000000000000000000000000011204034560000000000000000000000000000000000112040345600000000000000000000000000000089611120403456000000000010707856790000000000000011204034560000000000000000000000000000008962)
 (.leaf 11163402240000000000000000000000000000008963112040345610771323740000000000000000000000001120403456000000000000000000000000000000000011204034560000000000103621454700000000000000112040345600000000000000000000104099414689641120403456101509297210769479500000000000896511204034561002109286108889227910757638828966112040345611163694960000000000000000000000001120403456000000000000000000000000000000000011112284160000000000000000000010344371850000112040345610499452221067950329106007635489671120403456110428202600000000000000000000000011204034561083745153000000000010282140150000112040345611046447921068678460106782346189681120403456000000000010407645280000000000000011204034560000000000000000000000000000000000))))))))
 (.node 64 (.node 32 (.node 16 (.node 8 (.node 4 (.node 2 (.node 1 (.leaf 11204034560000000000107933954200000000000000112040345610644091960000000000107248967800001120403456106459602700000000001052929629896911204034560000000000000000000010338887810000112040345600000000000000000000000000000000001120403456106947978200000000000000000000000011204034560000000000000000000000000000008970112040345600000000000000000000000000000000001120403456000000000000000000000000000000000011204034560000000000000000000000000000000000112040345600000000000000000000101486669000001120403456000000000010168871941058240925897111204034560000000000000000000000000000000000112040345611107999161064339872107986353689721120403456000000000000000000000000000000000011204034560000000000000000000000000000000000)
 (.leaf 11204034560000000000000000000000000000000000112040345600000000000000000000000000000000001120403456000000000000000000000000000000000011204034561070166658000000000000000000000000112040345600000000000000000000000000000000001120403456106975450900000000000000000000000011204034561065526609107533356210373212330000112040345600000000000000000000000000000000001120403456106598180800000000000000000000000011204034560000000000000000000000000000000000112040345600000000000000000000000000000000001120403456000000000000000000000000000000000011204034561056752846000000000000000000000000112040345610687498890000000000102673991200001120403456104641556400000000000000000000897311204034560000000000000000000000000000000000))
 (.node 1 (.leaf 11204034561120399451101906067410057633980000112040345600000000000000000000000000000000001120403456000000000000000000001076353746000011204034560000000000000000000000000000000000112040345610573629490000000000103344118200001120403456000000000000000000000000000000000011204034560000000000000000000000000000000000112040345600000000000000000000105581587889741120403456000000000000000000000000000000000011204034560000000000000000000000000000000000112040345610834557751053169602000000000000001120403456110542957810437844270000000000000011204034561092863915000000000000000000000000112040345610903227281074145316000000000089751120403456111958887210512972641063443168000011204034561095316748103224170310577251480000)
 (.leaf 11204034561106812995104271068500000000008976112040345610637842280000000000000000000000001120403456109175665710531561801065344225000011204034561074072633000000000010825417580000112040345610168941740000000000000000000089771120403456109577471600000000000000000000000011204034560000000000000000000000000000000000112040345611013709620000000000000000000000001120403456111671231110451333151061236230000011204034561076652864000000000000000000000000112040345600000000000000000000000000000089781120403456000000000000000000000000000000000011204034561100143782107015737200000000000000112040345610772608241056108970000000000000001120403456107800901700000000001048338061897911204034561084652144000000000010548987880000)))
 (.node 2 (.node 1 (.leaf 11204034561078994917107238790300000000000000112040345610751914680000000000000000000000001120403456109092134410365098261089061578898011204034561070961554000000000010641233730000112040345611028160681048804170000000000000001120403456111709829210788412591084522064898111204034561091172373104142219500000000008982112040345610617677240000000000000000000000001120403456110339725510716388000000000000000011204034561063627075000000000000000000000000112040345610788965520000000000000000000000001120403456110827434810347247301043369256000011204034561082702281105954997700000000000000112040345610604408810000000000000000000000001120403456105918722000000000000000000000000011204034561109400055103460393510342247270000)
 (.leaf 11204034561103400627106083007910730175650000112040345610822680371021665346000000000000001113587712109341640610278259391074746405000011204034561074101616000000000000000000000000112040345610743559410000000000000000000000001120403456107858267200000000000000000000000011204034561113590475101570607810233034930000112040345611006858541074201100108092372989831120403456108559819410266716671037219206000011091312640000000000000000000010582423960000112040345610845463300000000000104103528500001120403456111677970410518811121061483169000011204034560000000000000000000000000000000000112040345611070730461049703429105255001500001120403456110544817510605800981017089465000011204034561064372386000000000010260064640000))
 (.node 1 (.leaf 11204034561070228423106314197910721560280000112040345610754279891033127540103397276789841120403456000000000000000000000000000000000011204034561107992610106465863910559020420000112040345600000000000000000000000000000000001120403456000000000000000000000000000000000011204034561105656211000000000000000000000000112040345600000000000000000000000000000000001120403456000000000010511731130000000000898511204034561072603507000000000000000000008986112040345611122229620000000000000000000000001086324736105376213900000000000000000000000011204034561066288084000000000000000000000000112040345600000000000000000000000000000000001120403456000000000000000000001042435362000011204034561090159609000000000010429063890000)
 (.leaf 11204034560000000000000000000000000000000000112040345600000000001076455958103294468100001120403456108442036510436837641031987467000011204034560000000000000000000010577233720000112040345610914398271047126449000000000000001120403456000000000000000000000000000000000011204034561079655109000000000010636946990000112040345600000000000000000000000000000000001120403456000000000000000000000000000000000011204034560000000000000000000000000000000000112040345600000000000000000000000000000000001120403456000000000000000000000000000000000011204034560000000000000000000000000000000000111489843210669724861098833409106248949900001120403456000000000000000000000000000000000011204034561082532244000000000000000000000000))))
 (.node 4 (.node 2 (.node 1 (.leaf 11204034561085571959105970265000000000000000112040345610914731400000000000000000000000001120403456000000000000000000000000000000000011204034561029537752000000000000000000000000112040345600000000000000000000000000000089871120403456000000000000000000000000000000898811204034560000000000000000000000000000000000112040345610597205340000000000000000000000001120403456000000000000000000001077066886000011204034560000000000000000000000000000000000112040345600000000000000000000000000000000001120403456000000000000000000001052266109000011204034560000000000000000000000000000000000112040345600000000000000000000000000000000001120403456000000000000000000000000000000000011204034560000000000000000000000000000000000)
 (.leaf 11204034560000000000000000000000000000000000112040345600000000000000000000000000000000001120403456000000000000000000000000000000000011204034560000000000000000000010538182808989112040345600000000000000000000000000000000001120403456108303956000000000001074922417000011204034561075020764000000000010641736700000112040345600000000000000000000000000000000001120403456107021922900000000001067919596000011204034561076110083000000000010625871980000112040345600000000000000000000000000000000001118175232000000000000000000001036839939000011204034560000000000111707611500000000000000112040345610848097831092076071109635045300001120403456107025928500000000001065919311000011204034560000000000000000000000000000000000))
 (.node 1 (.leaf 11204034561076683948103926129010472614020000112040345610871935880000000000105106343300001120403456110974956210871319301099343775000011204034560000000000109415822810575815690000112040345610600699701112413438105846836800001120403456107137814100000000001081078914000011204034560000000000000000000000000000000000112040345611018115451099197789109068035700001120403456107172219110992706131057190637000011204034561068683049000000000010482546170000111044198410357967271104014318108693723800001120403456107507562511076702311068236210000011204034560000000000000000000010845120040000112040345610765331671065153567105268195000001120403456108485735510997623421069608116000011204034561090482719000000000000000000000000)
 (.leaf 11204034561084657163111589640110865061830000112040345600000000000000000000106644416589901114898432106604171900000000000000000000000011204034561079735212110547729110526795040000112040345600000000000000000000108420351000001120403456108072369210902046770000000000000011204034561090541410108360368110787584100000112040345610667051580000000000109231477200001120403456108600273700000000000000000000000011204034561081870150000000000010384420860000112040345600000000000000000000106367712900001120403456108167745611068596811063420267000011204034561062550549000000000010461960390000112040345600000000000000000000109776292089911120403456108672585610835067931033231074000011204034560000000000000000000010015982260000)))
 (.node 2 (.node 1 (.leaf 11204034561079257309000000000000000000000000112040345610876393401081240820108574456789921120403456109212057510886540430000000000000011204034561067037380000000000010891937990000112040345610831364970000000000105077873800001120403456106503008710962580011057541881000011204034561070884052110739545110375419260000112040345600000000000000000000000000000000001120403456000000000000000000000000000000000011204034561094142056110159719310582173600000112040345600000000001115297651109401987100001120403456101680290600000000001093225759000011204034561116259465108040909010990971720000112040345610401731651091828187103540092389931120403456104863606200000000000000000000000011204034561110200612106987048110929001818994)
 (.leaf 11204034560000000000000000000000000000000000112040345600000000000000000000000000000000001120403456107604127100000000000000000000000011204034560000000000000000000010878036928995112040345600000000000000000000000000000089961120403456106426870300000000000000000000000011204034561075085910000000000000000000000000112040345600000000000000000000000000000089971120403456106658873211061840311077674288000011204034561048761120108888410010597653580000112040345600000000000000000000000000000000001120403456107211396400000000000000000000000011204034561102793569108018888910704472230000112040345600000000000000000000000000000000001120403456107025954500000000001034255457000011204034560000000000000000000010669312670000))
 (.node 1 (.leaf 11204034561081937314000000000010508708180000112040345600000000000000000000000000000000001120403456106369099710461869241037280023000011204034561075720017111683724910443651040000112040345600000000000000000000109285988389981120403456105173357300000000001023617030000011204034560000000000000000000010430637700000112040345600000000001105866785108162420789991120403456104025456810639909060000000000900011204034561016861961111699144210693677430000111568486411089171201103996335000000000000001114112000111083804410629473631074784081000011204034561059324256000000000010452557350000112040345610729387490000000000103905111600001120403456000000000000000000001070771844000011204034561063136342101672613300000000000000)
 (.leaf 11204034561099382710104728751010668972380000112040345610619039041107667190107832276000001120403456101570124710923813111075032100900111204034560000000000000000000010806197500000112040345610666066591068263224106039720300001120403456106107467400000000000000000000000011204034561058173490111704683310369803920000112040345610617800380000000000104939577590021120403456108396334900000000001033457528000010905190400000000000109051904000000000000000112040345600000000001102679848106791040690031120403456106438169811168424791070578887000011204034560000000000000000000000000000000000112040345600000000000000000000000000000090041120403456108167820210926994490000000000000011204034561063177261111702633310189386480000)))))
 (.node 8 (.node 4 (.node 2 (.node 1 (.leaf 11204034561109070806104251607010412303539005112040345600000000000000000000000000000000001120403456000000000000000000001039148989000011204034561069945526105422992210591480460000112040345600000000000000000000104339462100001120403456104459805511080464070000000000000011204034561064943667000000000000000000009006112040345611035038121032953056103274666390071120403456000000000000000000001083591321900811204034560000000000109922987510721836769009112040345600000000001100276879000000000000001120403456106192514400000000001053152020000011204034560000000000000000000000000000009010112040345610822118501059524811103030791190111120403456109177968910359595340000000000000011204034560000000000108001901900000000009012)
 (.leaf 11204034560000000000000000000010572647900000112040345610918085430000000000105180590500001120403456000000000010866462291057322333901311204034561071232976000000000010223350150000112040345600000000000000000000000000000000001120403456105154184300000000000000000000000011175198720000000000000000000010648904849014112040345600000000000000000000106126811390151120403456000000000010787133331042085754901611204034561093104356104354954610646185009017112040345610845012501016618759107250245300001120403456000000000000000000001024358127000011204034561063279519108852213200000000009018112040345610677996031086533403104762924490191120403456000000000000000000001054720604902011204034560000000000000000000010383580179021))
 (.node 1 (.leaf 11204034560000000000108968269600000000009022112040345600000000000000000000000000000090231120403456000000000000000000000000000000000011204034561071408558000000000009937040010000112040345600000000000000000000000000000000001120403456000000000000000000000000000000000011204034560000000000000000000000000000009024112040345600000000000000000000000000000000001120403456000000000000000000001025766992902511112545781062344071000000000010457683130000112040345610434599561040502804000000000000001120403456106951751400000000000000000000902611163402240000000000000000000000000000000000112040345600000000000000000000000000000000001120403456000000000010399726440000000000000011204034560000000000000000000000000000009027)
 (.leaf 11204034560000000000000000000000000000009028112040345600000000000000000000105756144200001120403456108285184600000000001017035757000011204034560000000000105258239900000000009029112040345600000000000000000000000000000000001120403456000000000010739284710000000000000011204034560000000000000000000000000000000000112040345611003520570000000000000000000000001120403456106134685010889692451050422159903011204034561082224785000000000010364803680000112040345610944261581073652066103962919890311120403456000000000000000000000000000000000011204034560000000000000000000000000000000000112040345610590328860000000000106209535590321120403456000000000000000000000000000000000011204034560000000000000000000000000000000000)))
 (.node 2 (.node 1 (.leaf 11204034561073096413106952906510586567729033112040345600000000000000000000102627030500001120403456000000000000000000000000000000000011204034561067508157000000000010458373670000112040345600000000000000000000000000000000001120403456000000000000000000001067695330000011204034560000000000000000000000000000000000112040345600000000000000000000104902657490341120403456000000000000000000000000000000000011204034560000000000000000000000000000000000112040345600000000000000000000000000000000001120403456000000000010300539540000000000000011204034560000000000000000000000000000000000112040345600000000000000000000000000000000001120403456000000000000000000000000000000000011204034560000000000000000000000000000000000)
 (.leaf 11204034561074958222000000000000000000000000112040345600000000000000000000000000000000001120403456106178862800000000000000000000903511204034561090970231000000000000000000000000112040345600000000000000000000000000000000001120403456103636352900000000000000000000000011204034561064825875000000000010432937730000112040345610576065550000000000104331623200001120403456000000000000000000000000000000000011204034560000000000000000000000000000000000112040345600000000000000000000000000000000001105199104000000000000000000001066486461000010905190401090519040000000000000000000000000112040345610677176710000000000101988828990361120403456000000000000000000000000000000000011204034560000000000000000000000000000000000))
 (.node 1 (.leaf 11204034560000000000000000000000000000009037112040345600000000000000000000000000000000001120403456110624693710510288291065770378000011141120000000000000000000000000000000000000112040345611125161961006941661103153815000001120403456109726644700000000000000000000000010936647681044620402000000000010428124029038112040345610935653700000000000000000000000001120403456106197462000000000000000000000000011204034561106110790104001290910492278170000112040345610758450620000000000107578435700001120403456000000000010354897720000000000000011204034561099966039000000000000000000000000112040345600000000000000000000000000000000001120403456107506402000000000000000000000000011204034561106326345106404291510603904510000)
 (.leaf 11204034561075984682000000000000000000000000112040345600000000000000000000104946741490391120403456000000000000000000000000000000000011204034561112185295107088466400000000000000112040345611057542911058008151105247141490401120403456108132354900000000000000000000000011204034561090462861107577144810409315360000112040345610837314570000000000000000000000001120010240108139626900000000001069851149904111204034561098801435101688719400000000000000112040345610909622431020698978103347534300001120403456110921039910679956280000000000000011204034561109505741103574478510519707950000112040345610610078670000000000000000000000001120403456108392778600000000000000000000000011204034561070307134105533386300000000000000))))
 (.node 4 (.node 2 (.node 1 (.leaf 11204034561077106927105589086600000000000000112040345610973119851021665346000000000000001120403456107568605610798613140000000000000011204034561104021163105561236410619292950000112040345610762045890000000000000000000000001120403456107487886200000000000000000000000011204034561084054546000000000000000000000000112040345611079685940000000000000000000000001120403456110989632510347784180000000000000011167334401082840207105126706510640995640000112040345611172110881064435502106397353600001120403456000000000000000000000000000000000011204034561110374536105045169310582117500000112040345610525154920000000000000000000000001120403456110746092111098980881060575353000011204034561060553405106842680210823493260000)
 (.leaf 11204034561037255674000000000000000000000000112040345610880677551025597925105143809800001120403456000000000000000000000000000000000011204034560000000000000000000000000000000000112040345610568717631034120751103848930390421120403456109544167300000000000000000000000011204034560000000000106682206100000000009043112040345600000000000000000000000000000090441120403456110125044200000000000000000000000011204034561063293662000000000000000000000000112040345600000000001095377827000000000000001120403456000000000000000000001048597051000011204034561110245722102422890410445309230000112040345600000000000000000000102619664100001120403456000000000000000000001028297130000011204034560000000000105483054600000000000000))
 (.node 1 (.leaf 11204034561095741236104325426700000000000000112040345600000000000000000000106412306700001120403456000000000000000000000000000000000011204034561081555565000000000000000000000000112040345610762219410000000000104418048400001120403456000000000000000000001032233653000011204034560000000000000000000000000000000000112040345600000000000000000000000000000000001120403456000000000000000000000000000000000010994319360000000000000000000000000000000000112040345611068942720000000000000000000000001120403456000000000000000000000000000000000011204034561104096778000000000000000000000000111935488000000000000000000000000000000000001120403456107726129410680316991055797358000011204034560000000000000000000000000000009045)
 (.leaf 11204034561074934474000000000000000000000000112040345600000000000000000000000000000000001120403456000000000000000000000000000000000011204034560000000000000000000000000000000000112040345600000000000000000000000000000000001120403456000000000000000000000000000000000011204034560000000000000000000000000000000000112040345600000000000000000000000000000000001120403456000000000000000000001061189726000011204034560000000000000000000000000000000000112040345600000000000000000000000000000000001120403456000000000000000000001057243221904611204034561080946367000000000010226243220000112040345600000000000000000000000000000000001120403456108389045000000000001076852052000011204034560000000000000000000000000000000000)))
 (.node 2 (.node 1 (.leaf 11204034561083791376000000000010722769150000112040345610750920750000000000105966485600001120403456106366864900000000000000000000000011204034561061344384107456726310823913180000112040345600000000001117050818104709749400001120403456107985496810502872761054556616000011204034560000000000000000000000000000000000112040345610841970181081248789104981439500001120403456106700239110334765060000000000000011204034561113853437109825144910909312730000112040345610605393801083530700107251908500001120403456107442661511162300321062260669000011204034561042729811000000000010657797300000112040345600000000000000000000000000000000001120403456105066734711099043271054450762000011204034561080448067110701785910847615080000)
 (.leaf 11204034560000000000000000000010594790540000112040345610637783390000000000105773608790471120403456110535832610983298831061487952000011204034561085336136109758424000000000000000112040345610810417751069842799105377899800001120403456109060909310863599681045265711000011204034560000000000000000000010657015109048112040345610702735041097061420104275904100001120403456105510522311168067621072697129000011204034561035617681000000000010808391340000112040345610921718051098297691104263331300001120403456108637815910674335911074804751000011204034561085018579110882639110406619280000112040345610407831170000000000109019112490491120403456106869835800000000000000000000000011204034560000000000000000000010659947730000))
 (.node 1 (.leaf 11204034561065577511000000000010249819310000112040345600000000000000000000109420142090501120403456110255956111001076910000000000000011204034560000000000103836203100000000000000112040345610735887400000000000000000000000001120403456108029427510738240321037608431905111204034561077426197000000000010886349709052112040345610750979520000000000106321222300001120403456000000000000000000001058260725000011204034561091903405110741865100000000009053112040345610618624141108259609103676996000001120403456106808281011112094111061928116000011204034560000000000000000000010560507420000112040345610978133181078215469104638635300001120403456106735209511162524581087253791000011204034561033586564000000000010951876070000)
 (.leaf 11204034561045007889000000000000000000000000112040345600000000001025061054000000000000001120403456111609547310935423991093260859000011204034560000000000000000000010459955479054112040345600000000000000000000000000000000001120403456108756851700000000000000000000000011204034561070700727000000000010353280990000112040345600000000000000000000000000000090551120403456103249081100000000000000000000000011204034561072029843000000000000000000000000112040345610759340780000000000000000000000001120403456105760054800000000000000000000905611204034561058210165108909947810440649790000112040345610833656081088813217108212670900001120403456000000000010418584031051896727000011204034560000000000000000000000000000000000))))))
 (.node 16 (.node 8 (.node 4 (.node 2 (.node 1 (.leaf 11204034561054628750000000000010581529450000112040345610748515950000000000000000000000001120403456000000000000000000000000000000000011204034560000000000000000000010627905229057112040345600000000001104107222106984476200001120403456107082087710694065910000000000000011204034560000000000111668029010634359130000112040345600000000000000000000108422563990581120403456000000000011047504711088815883905911204034561065334543000000000000000000000000112040345610672075011117087885103276875600001119354880106169477600000000001057419310000011204034560000000000000000000000000000000000112040345610634690841053438037000000000000001120403456109865576010264837621038003347000011204034561094518782109708773910830744639060)
 (.leaf 11200102401058019207000000000010424604860000112040345610678645471107868464105880697100001120403456000000000010918828181068141254000011204034561082864590000000000000000000000000112040345610717054561116934753000000000000001120403456107142977300000000001069685575906111204034560000000000000000000000000000000000112040345600000000000000000000000000000000001120403456000000000000000000000000000000906211204034560000000000102506105410255718950000112040345610501632591030027110104336246100001120403456000000000010978622181076631133906311204034561063620348111690129110665889510000111935488010608430811115860238107526859000001120403456106738492000000000001024084190000011204034561114963735103379862810127463199064))
 (.node 1 (.leaf 11204034561080301837000000000010454585740000112040345610655874681107938509000000000000001120403456000000000000000000001050764248000011204034560000000000111692065010463043299065112040345600000000000000000000107599505990661120403456000000000010824743651029353832000011204034561051845812000000000010595404690000112040345610997589150000000000000000000000001120403456000000000000000000000000000000906711204034561036518416000000000010390324480000112040345611018188790000000000105985625200001120403456000000000010778518221053768267906811204034560000000000109709875010382078499069112040345610648473331073797608000000000000001120010240106200215200000000001068397681000011204034560000000000000000000000000000000000)
 (.leaf 11204034561077540182104088532410762158559070112040345610848113140000000000105606104200001120403456000000000000000000000000000000000011204034561060240695109332660210551467659071112040345610163444180000000000103375028290721120403456106683832700000000001011681278907311204034560000000000000000000010413724949074112040345600000000001091901273104831259190751120403456000000000000000000000000000000907611204034561091755335103970420810554664710000112040345610711768480000000000000000000000001120403456000000000000000000000000000000000011204034560000000000000000000000000000000000112040345610446627481030966634104251679790771120403456000000000000000000000000000000000011204034561065605185000000000000000000000000)))
 (.node 2 (.node 1 (.leaf 11036262401059976840104016054810547487740000112040345600000000001089968747105426373600001120403456000000000000000000000000000000000011204034560000000000000000000000000000009078112040345609794130680000000000000000000090791120403456107658055400000000000000000000000011204034560000000000000000000000000000009080112040345600000000000000000000103849076100001120403456000000000010687858340000000000000011204034560000000000000000000000000000000000112040345610835247611077103978000000000000001120403456106051772010965792851059482102000011204034561077920559000000000010654261730000112040345610913922211082657237107281818390811120403456000000000000000000000000000000000011204034560000000000000000000000000000000000)
 (.leaf 11204034561073635079000000000010525911250000112040345600000000000000000000000000000000001120403456000000000000000000000000000000000011204034560000000000000000000000000000000000112040345611152962750000000000000000000000001120403456000000000000000000001042095197000011204034560000000000000000000010623327410000112040345600000000000000000000000000000000001116078080000000000011013402391062394074000011204034560000000000000000000000000000000000112040345600000000001030912947000000000000001120403456000000000000000000000000000000908211204034560000000000000000000000000000000000112040345610944564461009303893103667253300001120403456000000000000000000000000000000000011204034560000000000000000000000000000000000))
 (.node 1 (.leaf 11204034560000000000000000000000000000000000112040345610735950990000000000104175473800001120403456000000000000000000000000000000000011204034560000000000000000000000000000009083112040345600000000000000000000000000000000001120403456106770461800000000000000000000000011204034561068891858000000000000000000000000112040345610735510670000000000102382334090841120403456000000000000000000000000000000000011204034560000000000000000000000000000000000112040345600000000000000000000000000000000001120403456106139178000000000000000000000000011204034560000000000000000000000000000000000112040345610987367190000000000000000000000001120403456000000000000000000001050454613000011204034560000000000000000000000000000000000)
 (.leaf 11204034561092175364100317014310074972950000112040345611201802201059836381106562152600001120403456105713880600000000000000000000908511204034561065412800000000000010886271070000112040345611076506311052320675105050149400001120403456000000000010815562320000000000000011204034561083008757108310959200000000000000112040345600000000000000000000000000000000001120403456110364270600000000000000000000000011204034561079988380000000000000000000000000112040345600000000000000000000000000000000001120403456000000000000000000000000000000000011204034561099164677107725203700000000009086112040345611185204951032778573102618112800001120403456108975102310347515740000000000000011204034561105992207107073786310606757550000))))
 (.node 4 (.node 2 (.node 1 (.leaf 10863247361064720413000000000000000000000000112040345610796160980000000000103959478800001120403456110477650710252758020000000000000011204034561089189316108731396310445806340000112040345610765189360000000000000000000000001120403456110812026810634288691072845512000011204034561067596783000000000000000000000000112040345610653692300000000000103826793000001120403456111020636010216653460000000000000011204034561109581751103680510510545295740000112040345610944738881042985832100153822300001120403456106942429100000000001033098812000011204034561104879116105770280610655805950000112040345611077174870000000000000000000000001120403456109119785510183904331057981920000011204034561078331173000000000000000000000000)
 (.leaf 11204034561075445487000000000000000000000000112040345611197301321050961720105905900600001120403456106125395510757685120000000000000011204034561113777026105808700410671689260000112040345610608808131064188877000000000000001120403456108548185500000000001067856361000011204034561109888287110172176410752665960000112040345610906052581037301711106210823100001108344832000000000000000000000000000000000011204034561054243478000000000000000000000000112040345610942646390000000000000000000000001120403456110048344510173703780000000000000011204034560000000000000000000000000000009087112040345611202847621021611658000000000000001120403456000000000010907539210000000000000011204034561092123297105592106500000000000000))
 (.node 1 (.leaf 11204034561119954950000000000000000000000000112040345600000000000000000000104036517300001120403456000000000000000000001035723006000011204034560000000000000000000000000000000000112040345600000000000000000000000000000000001120403456108229304500000000000000000000000011204034560000000000000000000000000000000000112040345610853965051032483294104566893900001120403456000000000000000000000000000000000011204034560000000000000000000000000000000000112040345600000000000000000000000000000000001120403456110453396410174777521041480882000011204034560000000000000000000000000000000000112040345611068603910000000000000000000000001103626240106076226500000000000000000000000011204034560000000000000000000000000000009088)
 (.leaf 11204034560000000000000000000000000000000000112040345600000000000000000000000000000000001120403456107560074000000000000000000000000011204034560000000000000000000000000000000000112040345600000000000000000000000000000000001120403456000000000000000000000000000000000011204034560000000000000000000000000000000000112040345600000000000000000000000000000000001120403456000000000000000000000000000000000011204034560000000000000000000010690171470000112040345600000000000000000000000000000000001120403456000000000000000000001057815191908911204034561077428097000000000010611987590000112040345600000000000000000000000000000000001120403456108524621500000000001065907976000011204034560000000000000000000010646114800000)))
 (.node 2 (.node 1 (.leaf 11204034561079615435000000000010453871940000112040345610818499130000000000000000000000001120403456107938932900000000001063113773000011160780801067143253110097444410753762930000112040345610612775441087923395108222674200001120403456000000000011170153101046440428000011204034560000000000000000000000000000000000112040345610985465451075979905105102732400001120403456106752163800000000001069483673909011204034561067487521103328860110343060110000112040345611154837421083698892109041707300001120403456106600197410996841190000000000000011204034561082469609111313868610845868770000112040345610236847850000000000000000000000001120403456107131931111109389301076827553000011204034561055040060110986387810741876010000)
 (.leaf 11204034560000000000000000000010640076940000112040345610675414520000000000000000000090911120403456108299837010876386021049414050000011204034561071623214110905872910812992150000112040345610823596571077743609105762434900001120403456106768547611167054561074001904000011204034560000000000000000000000000000009092111935488010759243891105944746000000000000001120403456110983847110685568251041089362000011204034561064404683000000000010772755580000112040345610844648890000000000000000000000001120403456110084300810922488761067331043000011204034561076637903111071802200000000000000112040345610861771071074136089106941932000001120403456000000000010149947241089224147000011204034560000000000000000000010765203029093))
 (.node 1 (.leaf 11204034561072478919000000000000000000000000112040345600000000001033503349000000000090941120403456107133932700000000000000000000000011204034561071058434108146857110762008649095112040345610610788180000000000107442661590961120403456107135236300000000001052172822000011204034560000000000000000000000000000000000112040345610893721451110270175107174458290971118568448107156379711044389911074890406000011204034561084446481111608232710742141610000112040345600000000001062001128000000000000001120403456106774573111147247351065722856909811204034561105076751109358276910894156360000112040345600000000000000000000109397726390991120403456106093102700000000000000000000000011204034560000000000000000000000000000000000)
 (.leaf 11120148481107519780109221207110735987960000112040345600000000000000000000104578490591001120403456000000000000000000000000000000000011204034561083050723107184683710286098600000112040345610700241020000000000000000000000001120403456106592961400000000000000000000000011204034561065646431000000000000000000000000112040345610761247210000000000000000000000001120010240000000000010465694451076873899910111204034561066810032000000000000000000009102112040345610518374241100587834104791176300001120403456105874978800000000000000000000000011204034561077982953105534728410667686780000112040345610616987020000000000000000000000001120403456107051814110365903571031096927000011204034561075711339109548771710662627530000)))))
 (.node 8 (.node 4 (.node 2 (.node 1 (.leaf 11204034560000000000000000000000000000000000112040345610651409841116918592105915426700001120403456000000000000000000001054156864910311204034561071696774000000000010412452090000112040345610639372531100438831104275560300001120403456000000000010993132901095032626910411204034561075139005000000000010578878930000112040345610752979070000000000103308987100001120403456107145591211168256491066468230000011204034561077041848000000000010621797680000112040345611022580751104307238107641427491051118961664000000000000000000001034127822000011204034561065777344110787032510663033040000112040345610660331630000000000104025221500001120403456107138548111169401010000000000000011204034561071388778000000000010510937170000)
 (.leaf 11204034560000000000000000000000000000000000112040345600000000000000000000000000000091061120403456000000000000000000001059157199000011204034560000000000110932084710284017079107112040345610671729400000000000104463538700001120403456000000000000000000000000000000000011204034560000000000000000000000000000000000112040345610705833121115701864104387903100001120403456106887796611078403880000000000910811204034560000000000110792755110625865759109112040345610920235890000000000000000000091101120403456108819812200000000001023531930000011204034560000000000000000000010794417639111112040345600000000000000000000000000000000001120403456000000000010833480381037673943911211204034560000000000000000000000000000009113))
 (.node 1 (.leaf 11204034561106098460102444365310507333920000112040345610603079550000000000104958815700001120403456109892285600000000001048896249000011204034561091694568105421314510634425290000112040345600000000001087619308103372930091141120403456000000000010694695061045898559911511204034561060785267107516075700000000000000111568486410511807630000000000104655190400001120403456000000000000000000000000000000000011204034561079892687000000000010654971300000112040345610798556341016135575105193697200001120403456000000000000000000001032362824000011204034561051556640107456558510623867629116112040345610691760640000000000000000000000001120403456107407194510590701490000000000000011204034560000000000000000000010281485649117)
 (.leaf 11204034560000000000000000000000000000009118112040345600000000000000000000000000000000001120403456000000000010899133831044404196911911204034561053965949000000000000000000009120112040345600000000000000000000000000000000001120403456000000000000000000000000000000000011204034560000000000000000000000000000000000112040345610561796360000000000000000000091211120403456000000000010605901641040195884000011204034560000000000000000000000000000000000112040345610791929091088400497103877274091221120403456108001079900000000001051228237000011204034560000000000000000000000000000009123112040345610764121280000000000000000000000001120403456000000000010331409610000000000912411204034560000000000107581129410398984800000)))
 (.node 2 (.node 1 (.leaf 11204034560000000000000000000000000000000000112040345611047293391016242949000000000000001120403456105467119610957958941057916714000011204034561079012307000000000000000000000000112040345610956072171070763868108074419191251120403456000000000010302150150000000000000011204034560000000000000000000000000000009126112040345610737690410000000000000000000000001120403456000000000000000000000000000000000011204034561067560468000000000010258195500000112040345600000000000000000000000000000091271120403456000000000000000000000000000000000011020533760000000000107315881600000000000000112040345600000000000000000000000000000091281120403456000000000000000000000000000000000011204034560000000000000000000000000000000000)
 (.leaf 11204034561099482843103280541710439729120000112040345600000000000000000000000000000000001120403456106260322900000000001058756860000011204034560000000000000000000010400938999129112040345600000000000000000000000000000000001120403456105144748800000000000000000000913011204034561068353846000000000010365742649131112040345600000000000000000000000000000000001120403456000000000000000000000000000000000011204034560000000000000000000000000000000000112040345600000000000000000000000000000000001120403456106830805300000000001067201615000011204034561104528055000000000000000000000000112040345610678980600000000000103809180200001120403456000000000000000000000000000000000011204034561108339278104237514110505206210000))
 (.node 1 (.leaf 11204034561116528897106140385910707971480000112040345610403194620000000000000000000091321120403456108952912610922253880000000000000011204034561075921163000000000010939467230000112040345610911516061092881062000000000091331120403456108382199310692715350000000000000011204034561080947164105257568800000000000000112040345600000000000000000000000000000000001120403456107751214700000000000000000000000011204034561085429254000000000000000000000000112040345610703168221083555447000000000000001120403456000000000010469251220000000000000011204034561120403456000000000000000000000000112040345610908711781043307954000000000000001120403456108031862300000000000000000000000011204034561077283998102166534600000000000000)
 (.leaf 11204034561107822211103492605710087025890000112040345611166091371053921221107145688900001120403456109464206410500389730000000000000011204034561068366194104118731410493050790000112040345611192745791042415406103064817800001120403456111010250410426771311057860498000011204034561066003048105903156110324011870000112040345611030322881060670695106885633900001120403456111220564510300271100000000000913411204034561077132562000000000000000000000000112040345610849666600000000000000000000000001120403456111562889510716497051077001287000011204034561114341560105802157310666417660000112040345610989422541078237698105582248700001120403456110778274610343086561038230463000011204034561065694532107739590210632046980000))))
 (.node 4 (.node 2 (.node 1 (.leaf 11204034561076960604000000000010748653120000112040345611030920340000000000000000000000001120403456109366983110479183331059577634000011204034561060359612103346308400000000000000112040345611139536031055296953000000000091351120403456000000000000000000000000000000913611204034561116145300103463077810410109060000112040345600000000000000000000000000000000001120403456107576033700000000001043613953000011204034561091148912000000000000000000000000112040345600000000000000000000000000000000001120403456000000000000000000001045088549000011204034560000000000000000000010584497920000112040345600000000000000000000000000000000001120403456000000000000000000000000000000000011204034561068923726000000000010703148970000)
 (.leaf 11204034561100423420000000000000000000000000112040345600000000000000000000000000000000001120403456000000000000000000000000000000000011167334400000000000000000000000000000000000112040345611053825031009196519104548709300001120403456000000000000000000000000000000000011204034561102890842000000000000000000000000112040345600000000000000000000000000000091371111228416000000000000000000000000000000000011004805120000000000000000000010411134530000112040345600000000000000000000107300307700001120403456000000000000000000001068769679000011204034561083583056000000000000000000000000112040345600000000000000000000000000000000001119354880000000000000000000000000000000000011204034560000000000000000000000000000000000))
 (.node 1 (.leaf 11204034561078864210000000000010607732050000112040345600000000000000000000000000000000001120403456108657726000000000001071298532000011204034560000000000000000000010510952120000112040345610831277240000000000105882214600001120403456108941748400000000001055368584000011204034561081873967000000000010325821000000112040345600000000001058451069109096675200001120403456106816392811168134731071548084000011204034561099369264106617026610723941600000112040345600000000000000000000000000000000001120403456106694371311153324381093041902000011204034561077994626000000000010749501310000112040345610640265241025087898104898576300001120403456108570604310907893631056836899000011163402240000000000000000000010651838940000)
 (.leaf 11204034561083711435000000000010462524830000112040345610695174801050176546107297312400001120403456106689450500000000001046653949000011204034561053155542000000000010429709329138112040345611000056531077690761105426600400001120403456107884562911145140241082373357000011156848641094531356110988568810321556660000112040345600000000000000000000000000000091391120403456111590907610542903201069008322000011204034561075454761111657665210761385010000112040345610683736350000000000108221293100001120403456106636937800000000001072183101000011204034561083572488108172526210700681350000112040345610784639771108223512000000000000001120403456109195371010851190831066421627000011204034560000000000000000000010880047029140)))
 (.node 2 (.node 1 (.leaf 11204034560000000000103110085210745463630000112040345610624314640000000000000000000000001120403456000000000000000000001047102694914111204034561069498430000000000000000000000000112040345610652837751099945266108514799991421120403456000000000000000000001076034216914311204034561069390477000000000010697799100000112040345611149946271085304681104406791991441120403456107179319210161892620000000000000011204034561070297864111363408510892443970000112040345600000000000000000000000000000000001120403456000000000000000000000000000000914511204034561064465886000000000000000000000000112040345610783160440000000000106485935500001120403456000000000000000000000000000000000011204034561074594866000000000000000000000000)
 (.leaf 11204034561058042192000000000000000000000000112040345610650043670000000000000000000000001120403456106783278800000000000000000000000011204034561084616721109997693310643257380000112040345610670057380000000000000000000000001120403456107397683900000000000000000000914611204034561112830169105415945710636489630000112040345610654616470000000000000000000000001120403456107393559210926594981066974461000011204034560000000000000000000000000000000000112040345610738292671116904070102441992591471120403456000000000000000000001056789188914811204034561074264648000000000000000000000000112040345610831721521052189812104168113900001120403456106834192611031550100000000000000011204034560000000000109942973410898157239149))
 (.node 1 (.leaf 11204034561082800577111683613510587444710000112040345610732206990000000000105934971300001120403456107536446600000000001059088025000011200102401068620646110782012510686932239150111568486400000000000000000000105124362500001120403456106849749300000000001052243569000011204034561067199666000000000010328224620000112040345610737518111107830610105800755700001120403456106675878611169917440000000000000011204034560000000000000000000000000000009151112040345600000000000000000000000000000000001120403456000000000010940831501061220426915211204034560000000000000000000000000000009153112040345600000000000000000000104536397500001120403456000000000000000000000000000000000011204034560000000000000000000000000000000000)
 (.leaf 11204034561072066988111530092810750158340000112040345600000000001107684177104195774391541120403456110153208010500658171019593186915511204034561102218323104842165010542386420000112040345600000000001106640634000000000000001120403456106311740000000000000000000000915611204034560000000000000000000010619610199157112040345610677845370000000000105968170100001120403456000000000010919001191057440816915811204034561057679334000000000010226687509159112040345611039402371037395663106663280500001120403456000000000000000000001023715404916011204034561067304658108096357710324206490000112040345600000000001043173736000000000091611120403456108491408010530622281081835956000011204034560000000000000000000000000000000000)))))))
 (.node 32 (.node 16 (.node 8 (.node 4 (.node 2 (.node 1 (.leaf 11204034561074323259102204115510325358130000112040345610716927300000000000000000000091621120403456000000000000000000001058348743000011204034561057257203000000000000000000000000112040345610792406361083368171000000000000001108344832000000000000000000001046567577000011204034560000000000000000000000000000000000112040345600000000001089839143104151361591631120403456110056808510454822811071854001000011204034561065537505000000000000000000009164112040345600000000000000000000000000000000001120403456108551476610253026461047902265000011204034561050901154105548821300000000009165112040345600000000000000000000000000000000001120403456000000000010813469360000000000000011204034560000000000000000000000000000000000)
 (.leaf 11204034561076987246000000000000000000000000112040345600000000000000000000000000000000001120403456000000000000000000000000000000916611204034560000000000000000000000000000000000112040345600000000001043126760000000000091671120403456000000000010770188341027360826000011204034560979344348108945620310523258079168112040345610844676890000000000104745872000001120403456000000000000000000000000000000000011204034560000000000000000000000000000000000112040345600000000000000000000000000000000001120403456106398045400000000001037644321000011091312641059063270000000000000000000000000112040345600000000001092421157105848702491691120403456108047119110429187231012120875917011204034560000000000000000000010229961729171))
 (.node 1 (.leaf 11204034560000000000000000000000000000000000112040345600000000000000000000000000000000001120403456110605166310552734651066358417000011204034560000000000000000000000000000009172112040345610786145991070262229104128853100001120403456000000000000000000001043015328917311204034560000000000000000000000000000009174112040345610765412120000000000000000000000001120403456000000000000000000000000000000000011204034560000000000000000000000000000000000112040345600000000000000000000000000000000001120403456109724666200000000000000000000000011204034560000000000000000000000000000000000112040345610658241360000000000107388492400001120403456110871866810368051051043716754000011204034561066801903000000000010586426690000)
 (.leaf 11204034561118240213105018996810591777210000112040345610518332290000000000000000000091751120403456108922796210964804041041776661000011204034561073734224000000000010894280900000112040345610462630261083156988000000000091761120403456109578443010188199301042429157000011204034561094699181108521618100000000000000112040345600000000000000000000000000000000001120403456107715108910579058100000000000000011204034561079662734000000000000000000000000112040345610664207250000000000105060390900001120403456107455013800000000000000000000000011204034561092537719105795446400000000000000112040345611204034560000000000000000000000001120403456107877542100000000000000000000000011204034561074958785104177116100000000000000)))
 (.node 2 (.node 1 (.leaf 11204034561103614622104443538300000000000000112040345611128540771058451069107090828900001120403456111991402110536863401044156878000011204034561106859345104668353010468816240000112040345610648912551060563321103206914400001120403456110774453910427106851051527022000011204034561109078881000000000000000000009177112040345610827783890000000000000000000000001120403456108547055100000000000000000000000011204034561102261046106935290410289210420000112040345611006096291050062461104881606600001120403456110972945610801024861090871123917811204034561074004249000000000000000000009179112040345610936044861028953368103913669500001120403456107027603710740027101060325946000011204034561080726603108137126310592613300000)
 (.leaf 11204034561097911177106951396610547465150000112040345610921899560000000000000000000000001120403456106837112700000000000000000000918011204034560000000000000000000000000000000000112040345610932897960000000000100125999200001120403456109913055510493544631044822923000011204034561076940220110332105200000000000000112040345610672340591087363455000000000000001120403456000000000000000000001060364430000011204034560000000000000000000000000000000000112040345610778344450000000000105048172000001120403456000000000000000000000000000000000011204034561100807051000000000000000000000000112040345600000000000000000000000000000000001114112000000000000000000000000000000000000011204034561103811983103656351310589154370000))
 (.node 1 (.leaf 11204034561105118161000000000000000000000000112040345610748198570000000000000000000000001093664768000000000000000000001050276930000010936647680000000000000000000000000000000000112040345600000000000000000000106439335000001120403456107039221900000000000000000000000011204034560000000000000000000000000000000000112040345610764789720000000000105792283591811120403456000000000000000000000000000000000011204034560000000000000000000010555561530000112040345610885775340000000000105197731100001120403456000000000000000000000989416200000011204034561077875227000000000010322429530000112040345610690720870000000000106551048500001117519872107419005211131432731088097316000011204034560000000000106262188510842105650000)
 (.leaf 11204034561081301977108249219110331862000000112040345610915245471111421406108850551700001120403456000000000000000000000000000000000011204034561074162060000000000010631045950000112040345610705718611043153604000000000000001120403456111373614410879164741084443956000011204034561099880901107074960810833496610000112040345610761115430000000000000000000000001120403456000000000000000000001035464725918211204034561080784241107583562110407206000000112040345610793378141116379965107884792400001120403456000000000000000000000000000000918311204034561056626715000000000010830274100000112040345611010770601040912168105239615700001120403456108241710210883237411042503366000011204034560000000000000000000010708304130000))))
 (.node 4 (.node 2 (.node 1 (.leaf 11204034561082478240105782695710938571239184112040345610740645801108486809107260922600001120403456000000000000000000001087312339918511204034561078060086000000000000000000000000112040345600000000000000000000108276403591861120403456000000000000000000000000000000918711204034561101642339109890146110318874930000112040345610690488340000000000000000000000001120403456106527847400000000001063609081000011204034561066230035106063546310678568389188112040345610812145010000000000103229012700001120403456000000000010672096151061542447000011204034561086638162111569696210832428790000112040345610846622460000000000000000000000001120403456000000000000000000000000000000000011204034561077302511108850241910588492730000)
 (.leaf 11204034560000000000000000000010606233129189112040345610477068730000000000000000000000001120403456108609344100000000000000000000000011204034561066814889000000000000000000000000112040345610671410210000000000000000000000001120403456109275251600000000001046304461919011204034561082746538000000000010531012039191112040345611018778251088413709106334332700001120403456106367177000000000000000000000000011204034561077538307111666774710326856789192112040345600000000000000000000000000000000001120403456000000000000000000001070651983919311204034561077467901105735551700000000000000112040345610642423801107666928107832114100001120403456000000000010996449021100403000919411204034561109640831111068821610486361690000))
 (.node 1 (.leaf 11204034561077961738000000000010502355120000108632473600000000001084632334105236669900001120403456107413022900000000001056637952000011204034561058222295000000000000000000000000111856844810570653221115928514102216830500001120403456000000000000000000001060997625000011204034560000000000000000000000000000009195112040345609792756290000000000102479376100001120403456106175514111079500431043340181000011204034561025579940000000000010741929599196112040345600000000000000000000000000000000001120403456107115919811168874891059198411000011204034560000000000000000000000000000000000112040345600000000001107463661104944655991971120403456109958938510236651901038501498000011204034560000000000110361229400000000000000)
 (.leaf 11204034561080133025106639172600000000009198112040345610746043620000000000000000000000001120403456000000000000000000001058530878919911204034561070152876000000000010744788279200112040345610584803291084539850102151502992011120403456106413512310322417031054993001000011204034561027730376104426761100000000009202112040345610692474590000000000103372077492031120403456000000000010957049820974940506920411204034561081760738108311672310738107190000112040345610775366791050069172105317023500001120403456105772163000000000000000000000920511204034560000000000000000000000000000000000112040345610604003810000000000000000000000001120403456107569799310856981071070249345920611204034560000000000000000000010402594300000)))
 (.node 2 (.node 1 (.leaf 11204034560000000000108424603900000000000000112040345600000000000000000000000000000000001120403456107502466400000000001049443877000011204034560000000000000000000010545739300000112040345610603448311066494067000000000092071120403456000000000000000000000000000000000011204034560000000000106481466710310759530000112040345610786374200000000000103015416100001120403456000000000000000000000000000000000011204034560000000000000000000000000000009208112040345600000000000000000000000000000092091120403456000000000000000000001044473051000011204034560000000000104069070800000000000000112040345610659897021092483128105192537492101120403456108290503600000000000000000000000011204034560000000000101688719400000000000000)
 (.leaf 11204034560000000000000000000000000000000000112040345600000000000000000000000000000000001120403456000000000000000000001037941264921111204034561094650907105384069010408021749212109681049600000000001088460685104776696500001120403456000000000000000000000000000000000011204034560000000000000000000000000000009213112040345600000000000000000000000000000000001120403456108353347710249805231034580744000011204034561076977348109057262210425043420000112040345600000000000000000000103368862792141120403456106258952200000000001043982746000011204034560000000000000000000000000000000000112040345610537984120000000000000000000092151120403456108487599000000000001018382551000011204034560000000000000000000000000000000000))
 (.node 1 (.leaf 11204034560000000000000000000000000000000000112040345600000000000000000000000000000000001120403456111106295200000000000000000000000011204034561103710987102557108110344324230000110519910400000000000000000000107074386100001107558400107356844800000000001045929954000011204034561119156765106245746910687562540000112040345610685906231089266621102169043700001120403456106800066910965555871023976055000011204034561071415621000000000010841373900000112040345610699410801016135575000000000092161120403456110186110110311276951032400601000011204034561082392494109085301110350847930000112040345610765551071061561565000000000000001120403456000000000000000000000000000000000011204034561067966309000000000000000000000000)
 (.leaf 11204034561080912322104760292110650943969217112040345610917657441030027110000000000000001120403456110200248910618333560000000000000011204034561120357929105184084600000000000000112040345610772105721021665346000000000000001120403456108432308000000000001048382561000011083448321104188374105362594210695253160000112040345610960890840000000000000000000000001120403456111725042810582044441052460598000011204034561088488066107663631310276071870000112040345611029701391053797070106217298400001120403456110176256400000000000000000000921811204034561085391759000000000000000000000000112040345610838606830000000000000000000000001120403456110010119110595667541060964058000011204034561117919782105331724110593947290000)))))
 (.node 8 (.node 4 (.node 2 (.node 1 (.leaf 11204034561091949154105702836110544714379219112040345610811622231078131163000000000000001120403456110580831610519616421063362100000011204034561047436022000000000010521895320000112040345610811548031042435539000000000000001120403456110733447000000000000000000000000011204034560000000000000000000000000000000000112040345610776625210000000000000000000000001120403456111222519010467774821039381864000011204034561080627365108507525310387220770000112040345610536768111102065539000000000000001120403456000000000010561626570000000000000011204034560000000000000000000010653861820000112040345600000000000000000000000000000000001120403456108812741000000000001056833591000011204034561066785688000000000010467984830000)
 (.leaf 11204034561111844792000000000000000000000000112040345600000000000000000000000000000000001120403456108701014400000000000000000000000011204034561109777015000000000000000000000000112040345610753659470000000000000000000000001120403456000000000000000000001061867604000011204034560000000000000000000000000000000000112040345610938638300000000000107097745792201120403456000000000000000000000000000000000011204034561070687440000000000010618120110000112040345600000000000000000000104610107700001120403456108400655000000000001062593064000011204034561081799178000000000010640640840000111607808000000000001023745720108295170600001120403456107164296100000000001051286176000011196170241084086783111232960410879567560000))
 (.node 1 (.leaf 11204034560000000000000000000000000000000000112040345610764471370000000000106941638800001120403456108019416900000000000000000000000011204034561103211861109515070510931163540000112040345610931114331063120169000000000000001120403456106668719800000000001066336341000011204034561075065249111650160010773037850000112040345600000000001043227424108622505092211120403456109118855710620548151039127763000011204034560000000000000000000000000000009222112040345610590115630000000000108820351400001120403456108197671110913778241071210505000011204034561084235591111050489910653943820000112040345600000000000000000000107368901792231120403456000000000000000000000000000000000011204034560000000000105183413510906338049224)
 (.leaf 11204034560000000000000000000010854685269225112040345611129541861082924833000000000000001120403456108418234810250610540000000000000011204034561069102303102508789800000000000000112040345600000000000000000000000000000092261120403456106677025310613384281083209345922711204034560000000000097671582800000000000000112040345610707698740000000000000000000000001120403456108353888311161550721074741067000011204034561080434897110147372310572524620000112040345600000000000000000000103614003300001120403456000000000000000000000000000000922811204034561076995870103336913100000000000000112040345610764424310000000000000000000000001120403456108711266500000000000000000000000011204034561073492632000000000000000000000000)))
 (.node 2 (.node 1 (.leaf 11204034561076622753111639052910674856089229112040345611009928001049690007108564549092301120403456109876440910951826871077394776000011075584000000000000000000000010765306090000112040345600000000000000000000102396085892311120403456000000000000000000000000000000000011204034561077793631108598667510693446380000112040345610786282801107746331105307578600001113587712111067149610764060461021875365000011204034560000000000109911028510957381749232112040345610751529680000000000000000000000001117519872101511068900000000001055052986000011204034560000000000000000000010417420980000112040345600000000000000000000000000000000001120403456000000000000000000000000000000923311204034561067266523110786455810362870440000)
 (.leaf 11196170240000000000000000000010763153539234112040345600000000000000000000000000000000001120403456107677498111167865771053784094000011204034560000000000000000000000000000000000112040345600000000001107648158106210903692351120403456107019502010415698350000000000000011204034560000000000108845124810792843009236112040345610697103510000000000000000000000001120403456110937698610451400260000000000923711204034560000000000000000000010570891169238112040345610688386161083844644000000000092391120403456000000000000000000001026433977924011204034560000000000000000000010586104280000112040345610580417561066282674104961685392411120403456107469315100000000001020071513924211204034560000000000107745126610682969159243))
 (.node 1 (.leaf 11204034561063202796104380456010679959189244112040345610770639351044374985103777453000001120403456000000000000000000000000000000000011204034560000000000000000000000000000000000112040345610609224870000000000000000000000001120403456107810265910864490971074550196000011204034560000000000108683182700000000000000112040345610715750050000000000105745460200001120403456000000000000000000000000000000000011204034560000000000000000000000000000000000110205337610533659960000000000106771561100001120403456106350569200000000000000000000000011204034560000000000103279199500000000000000112040345610747705610000000000000000000000001120403456000000000000000000000000000000000011204034560000000000000000000000000000000000)
 (.leaf 11204034560000000000000000000000000000009245112040345600000000000000000000000000000092461120403456000000000000000000001045564735924711204034560000000000000000000000000000009248112040345610728541501105864268105808404192491120403456107660456200000000000000000000000011204034560000000000000000000000000000000000112040345600000000000000000000000000000000001120403456000000000000000000000000000000000011204034560000000000000000000000000000000000112040345610742258300000000000000000000000001120403456000000000000000000000000000000000011204034560000000000000000000000000000000000112040345600000000000000000000000000000000001120403456107050554110934974151044599322925011204034560000000000000000000000000000009251))))
 (.node 4 (.node 2 (.node 1 (.leaf 11204034561068298288000000000010487583520000112040345600000000000000000000000000000000001120403456106992759900000000000000000000925211204034560000000000000000000000000000000000112040345610832988960000000000105012070400001120403456000000000000000000000000000000000011204034560000000000000000000000000000000000112040345611021025001024631557102772291100001120403456111870204210756258071075836598925311204034561074514549101188087310238014900000112001024010698458610000000000108084000992541120403456107691716010072637831031105841000011204034561035033029000000000000000000009255112040345610917630270000000000000000000000001120403456110361209010508811890000000000000011204034561077898463000000000000000000000000)
 (.leaf 11148984320000000000000000000000000000000000112040345610979398001037999643105522431000001120010240110612937800000000000000000000000011204034561108933275107046187810690482730000112040345610703129390000000000000000000000001120403456110606997310496094771065832874000011204034561107795972104250264810392010890000112040345611202074751050381228103471385100001120403456108895327710703545041033343414000011204034561108346081106662241210753619050000112040345611090639360000000000000000000000001120403456108491819300000000000000000000000011204034561091020619000000000010343016070000112040345611043008821077108172106671063400001120403456110836126010511932461049572975000011204034561015826337107314036100000000009256))
 (.node 1 (.leaf 11204034561086873231108734961400000000000000112040345611149254171056655907106207055400001120403456108246371110751238470000000000000011204034561112327123103561056700000000000000112040345611204034560000000000000000000000001120403456000000000000000000000000000000000011204034561082786960000000000000000000009257112040345611026784251048941743000000000000001120403456110199838210767516571056737428000011204034561090289674111008882400000000000000112040345600000000001062970851000000000000001120403456000000000000000000000000000000000011204034560000000000000000000000000000000000112040345611141722821076507129107511959700001120403456107253864600000000000000000000000011204034561114206541000000000000000000000000)
 (.leaf 11204034560000000000000000000000000000000000112040345611080422381050441626105888404500001120403456109340363710869666741050754030000011204034561067902908102053791700000000000000112040345600000000000000000000107854146700001120403456000000000000000000000000000000000011204034560000000000000000000010734168589258112040345600000000000000000000000000000000001120403456108209597600000000001059536510000011204034561072859418000000000010402034430000112040345610743860610000000000108164956000001120403456108323364900000000001040670738000011204034560000000000000000000000000000000000112040345610824781170000000000105520586400001120403456107503571200000000000000000000000011204034561113848722107387142810780919360000)))
 (.node 2 (.node 1 (.leaf 11204034561102199870109640606010902123990000112040345600000000000000000000106115976300001120403456106790935110752987501067507226000011204034561089894764107418851710351638720000112040345610708026240000000000108736182600001120403456109118988410974663801034665718925911204034561077640069110840897910592473500000112040345600000000000000000000108389088992601120403456108509553010522971871085119141926111204034560000000000000000000010661420710000112040345610840730700000000000000000000000001120403456000000000000000000001081565468926211204034561102155675111095384610516636960000112040345610773862760000000000000000000000001120403456000000000010244704960000000000926311204034561065952926106768776610621825259264)
 (.leaf 11204034560000000000105017654600000000000000112040345610801647841107670938105411958300001120403456107414903600000000001056704004000011204034561085279926111443674410944192470000112040345610665807710000000000000000000000001120403456108650429010215579710000000000000011204034561066402312000000000010258571809265112040345610628484950000000000104672074600001120403456108132630000000000001038466277000011204034561074350061111607131710865307450000112040345610867111970000000000105508345592661120403456000000000000000000001041569565926711204034560000000000000000000000000000000000112040345610348998851092910003107429217800001120403456107605711811078181851025611469000011204034561069113628000000000010408606210000))
 (.node 1 (.leaf 11204034560000000000110490529310933281629268112040345600000000000000000000108550810300001120403456000000000000000000001062816415926911204034560000000000000000000010520757940000112040345610699380431107763318107096020900001099431936000000000000000000001034367799000011204034560000000000103347650600000000000000112040345610696058121116920375105491168400001120403456105732944511069543150000000000927011204034561057937435000000000010479570440000112040345610691088551025034211105003005400001120403456000000000010861890501039112510927111204034561076726789000000000010391566159272111961702400000000000000000000104234160492731120403456108282974810612981630000000000927411204034560000000000000000000010742892059275)
 (.leaf 11204034561062860424108669131800000000000000112040345610667005100000000000102178183692761120403456106670895800000000001048720898000011204034560000000000000000000000000000009277112040345600000000001019034678108216002292781120403456000000000000000000000000000000000011204034561075103698103387915910308582860000112040345610609945120000000000106119643700001120403456000000000000000000000000000000000011204034561078711072108101936110097015690000112040345610697885330000000000105625070792791120403456000000000010822711510000000000000011204034560000000000000000000000000000000000112040345600000000000000000000000000000000001120403456107067349800000000000000000000928011204034560000000000000000000000000000000000))))))
 (.node 16 (.node 8 (.node 4 (.node 2 (.node 1 (.leaf 11204034561083188391000000000000000000000000112040345600000000000000000000103982617192811120403456000000000000000000000000000000000011204034560000000000000000000000000000000000112040345600000000000000000000000000000000001120403456000000000000000000001040628304928211204034560000000000000000000010567970019283112040345610693769381107564534105108775892841120403456110371049400000000000000000000000011204034560000000000000000000010589507950000112040345600000000000000000000000000000000001120403456000000000000000000000000000000000011204034560000000000000000000000000000000000112040345610691621390000000000000000000000001120403456000000000000000000000000000000000011204034560000000000000000000000000000000000)
 (.leaf 11204034561071445300108744146910545872849285112040345600000000000000000000103923786100001120403456000000000000000000000000000000928611204034561072053130102997342310395293189287112040345600000000000000000000000000000000001118568448000000000000000000001035996259000011204034560000000000000000000000000000000000112040345610755413820000000000103172780300001120403456000000000000000000000000000000000011204034561111365092104226776710474586070000112040345611170501211074097501107435779600001120403456107151604100000000001049839625928811204034561084983855000000000010400699240000112040345600000000000000000000000000000092891120403456108734412610384157180000000000000011204034561110449412104885785710582409850000))
 (.node 1 (.leaf 11204034561086642918103657693500000000000000112040345610921801061039650521105679522200001120403456108907030600000000000000000000000011204034561109399974107401739010591646350000112040345610774390740000000000000000000000001120403456110842849710416973411060026570000011204034561101988664102747697310497807060000112040345611200328561051871045105641803200001120403456107948450610745093821021476587000011204034561109282289104361665510618091260000112040345610981412610000000000000000000000001120403456106716804100000000000000000000000011204034561084812159000000000000000000000000112040345610934556061056142524105766040300001120403456107098729000000000000000000000929011204034561101484791104902562910385682140000)
 (.leaf 11204034561107688729000000000000000000000000112040345611119072401054739949106394937500001120403456107972741910900681521046613339000011204034561101477318000000000000000000000000112040345611176524220000000000000000000000001120403456000000000000000000000000000000000011204034561073510449000000000000000000009291112040345611124836891021665346000000000000001120403456111080956210786952971060988172929211204034560000000000106990990810427406370000112040345600000000000000000000000000000000001120403456000000000000000000000000000000000011204034561116727603107423633210729591910000112040345600000000000000000000000000000092931120403456111954350810281212181039579125000011181752320000000000000000000000000000000000)))
 (.node 2 (.node 1 (.leaf 11204034561090566214103889890210484141500000112001024010604655771072595101000000000000001120403456000000000010346978870000000000929411204034560000000000000000000010749920040000112040345600000000000000000000000000000000001120403456000000000000000000001079775458929511204034560000000000000000000000000000000000112040345610880197490000000000103338866000001120403456108544470800000000001082488665000011204034561081357644000000000010865014810000112040345610854234660000000000103519047500001120403456108280894900000000000000000000000011204034560000000000000000000000000000000000112040345610840089240000000000000000000000001120403456110743001710926800501096152463000011204034560000000000000000000010448980920000)
 (.leaf 11204034561085030722110330689610593194230000112040345600000000000000000000108326061892961120403456000000000010709173801030410195929711204034561083102414110664703010520778000000112040345600000000000000000000108142759592981120403456108200584910724583671082988947929911204034561072515561000000000010187648910000112040345611052622741102084991000000000000001120403456000000000000000000001085931953930011204034560000000000000000000010421560660000112040345610679693380000000000000000000000001120403456000000000010253026461044766326930111204034560000000000104268384200000000000000112040345610783518591108076528000000000000001120403456108361196711029086471055163413000011204034561074053830000000000010314939060000))
 (.node 1 (.leaf 11200102401067644665111326899710900216109302111896166410623254990000000000000000000000001120403456107198936800000000001019626064000011204034561022811565109671004210750636429303112040345610658671780000000000000000000000001120403456106876150710745974620000000000000011204034561078861282110773403610496060100000112040345610864076970000000000000000000093041120403456000000000000000000001050122558000011204034561048311994000000000000000000009305112040345600000000001105851266109131905893061120403456000000000000000000001052568681000011204034560000000000000000000000000000009307112040345610430962930000000000107208630193081120403456106633582411078899071057704273000011204034561061302173000000000000000000000000)
 (.leaf 11204034561066739131111696935610422126520000112040345610721311781107801932105504745900001120403456000000000010855099921051677764930911204034561063125655000000000010492237020000112040345610567550270000000000103300283600001120403456106950665100000000000000000000931011091312640000000000000000000000000000009311112040345610896817811065866599104621601793121120403456000000000000000000001053484998931311204034561065036060109437486410460815660000112040345610688460900000000000000000000000001120403456104904797700000000001024512052931411204034561062261947105127042100000000009315112040345600000000000000000000000000000000001120403456000000000010332349141049598516931611204034561076730660000000000000000000000000))))
 (.node 4 (.node 2 (.node 1 (.leaf 11204034560000000000000000000010637304900000112040345600000000000000000000106582279300001120403456107503503300000000000000000000000011204034561047976986107839624300000000000000112040345610780332971020323168105020606900001120403456000000000000000000000000000000000011204034561060541443000000000000000000000000112040345600000000000000000000000000000000001120403456107206089800000000000000000000000011204034561080532088000000000000000000000000112040345600000000000000000000104366858493171120403456000000000000000000000000000000931811204034560000000000000000000000000000000000112040345600000000000000000000000000000000001120403456000000000000000000001065503589931911204034561025281440000000000010465208180000)
 (.leaf 11204034561062674549110360327610676673769320112040345610979585700000000000000000000000001120403456000000000000000000001060158126932111204034560000000000000000000000000000000000112040345610532727480000000000000000000000001120403456104125449010251147410000000000000011204034560000000000000000000000000000000000112040345600000000000000000000000000000000001120403456107036046010971342961068823658000011204034560000000000000000000000000000000000112040345611153422941056437803107567295800001120403456000000000000000000001018755752932211204034561082408001104047596000000000009323112040345600000000000000000000000000000000001120403456108302717200000000001044148357932411204034560000000000000000000000000000000000))
 (.node 1 (.leaf 11204034561108659391104943499310804732220000112040345611192094331075392283108321122400001120403456107645719100000000001021059720932511204034561033883320110467612710319518400000112040345600000000000000000000000000000093261120403456112031183810276380341040748913000011204034561084137048108609404900000000000000112040345610836050320000000000000000000000001116340224108313593000000000000000000000000011204034561088426942000000000000000000000000112040345611098755251070068453104921369800001120403456111576929210497302721050679145000011204034561111781049104805926210629116390000112040345610892024751067297695101713935400001120403456111951864010583403401069912455000011204034561101502018000000000000000000000000)
 (.leaf 11204034561098786359098338645010522888450000112040345610879047090000000000000000000000001120403456107301470800000000000000000000000011204034561109094134106283663410718817780000112040345610660102791068943540000000000000001120403456110365059210347784181041367062000011204034561114999337105061610910581864450000112040345610996399481078510328104135069500001120403456107653204710991277441079598866000011204034560000000000000000000000000000000000112040345611162762190000000000000000000000001120403456000000000010773350840000000000000011204034561082418350000000000000000000009327112040345611179246840000000000000000000000001120403456110279110910669780891060617650932811204034560000000000000000000000000000000000)))
 (.node 2 (.node 1 (.leaf 11204034560000000000000000000000000000000000112040345600000000001084026887000000000000001120403456111577506600000000000000000000000011204034561054010107000000000000000000009329112040345611106922121024309435103327709500001120403456102524412710753100740000000000000010863247361041201675000000000000000000000000112040345600000000000000000000106516340900001120403456000000000000000000000000000000000011204034561080465881000000000010919410320000112040345610480371830000000000108941556000001120403456000000000000000000000000000000000011204034561082163546000000000010560428890000112040345610873804650000000000106988811000001120403456106680660900000000000000000000000011204034561071781817000000000010406800040000)
 (.leaf 11204034560000000000000000000000000000000000112040345611036060351094671611108188336400001120403456108082576900000000000000000000000011204034560000000000000000000010582050520000112040345610884725091071394691105030147300001120403456000000000000000000001082774695933011204034560000000000108782147310601507499331112040345610749619511101201880105146008000001120403456000000000000000000001085225806933211204034561084237850109346375600000000000000112040345600000000001075795775108594698600001120403456107082670700000000000000000000000011204034560000000000000000000010915864839333112040345600000000000000000000107562685400001120403456106597870400000000000000000000000011204034561063412042000000000000000000009334))
 (.node 1 (.leaf 11204034560000000000105225021000000000000000112040345610672253520000000000000000000000001120403456107052243611130028691051696238000011204034561078418603108486050400000000000000111673344000000000001109497925108466852800001120403456107289041400000000000000000000000011204034561066382498110984335210900207599335112040345610745331970000000000000000000000001120403456108072073511076961830000000000000011204034561061783477106874724710504141100000112040345610783742901021396910000000000093361120403456000000000000000000000000000000000011204034561075964818000000000000000000000000112040345600000000001105264483108628849493371120403456000000000000000000001074390124000011204034560000000000000000000000000000009338)
 (.leaf 11204034560000000000000000000010544760710000112040345610708593721107913002099849953400001120403456106535613500000000001042011973000011204034561068423270110791499410446790220000111961702410835529181116272748102822694400001120403456000000000011065427491065761840933911204034561071233848000000000000000000000000112040345610702588910000000000104113839300001120403456106895136700000000001044137484000011204034561097359411107150290510435632869340112040345600000000000000000000102856535793411120403456106668136810994619781037196242934211204034561073730961000000000000000000000000112040345610619748220000000000000000000000001120403456000000000010833241310000000000934311204034560000000000000000000000000000000000)))))
 (.node 8 (.node 4 (.node 2 (.node 1 (.leaf 11204034561077355624000000000000000000000000112040345600000000000000000000103734161600001120403456000000000000000000001085378364934411204034561072299025000000000010303695140000112040345610528085221079421331104470834600001120403456000000000000000000001068985417000011204034561083843709108833150110420961850000112040345611007964671046468782000000000093451120403456000000000000000000000000000000000011204034561070766183000000000000000000000000112040345610723992690000000000102936333100001120403456105660725310262690140000000000000011204034561069757067105385411200000000009346112040345610583472350000000000105207632893471120403456000000000010487337060000000000000011204034560000000000000000000010704553560000)
 (.leaf 11204034561058098865109420992310505489499348112040345611174722021046039285107142429400001120403456000000000000000000000000000000000011204034560000000000104445551600000000000000112040345600000000000000000000000000000000001120403456000000000000000000000000000000000011204034561076394839109344152610714363290000112040345600000000000000000000000000000093491120403456111783774510536628521070045185000011204034560000000000000000000000000000009350112040345610832570811029973423000000000093511120403456000000000000000000000000000000000011204034561077523849000000000010522241450000112040345600000000000000000000000000000000001120403456110129416910587245380000000000000011204034561109289057107457816810846707379352))
 (.node 1 (.leaf 11204034561069386593000000000000000000000000112040345611113794331062261175000000000000001120403456111626344810444756481043281331000011204034560000000000000000000000000000009353112040345610920949430000000000000000000000001120403456106221018900000000000000000000000011204034561107546674000000000000000000000000112040345610825596791060356961101621947500001120403456110864118610759643861063271924000011204034561112393260105706191610787891750000112040345610888607971063249353000000000000001120403456105196345400000000001033775734000011204034561106947210103559714610453123180000112040345610899774320000000000000000000000001120403456108637549500000000000000000000000011204034561109423723103315438310515521220000)
 (.leaf 11204034561104562392103040292000000000000000112040345610679089140000000000000000000000001120403456111342573510627846241065683368000011204034561081272684108088975710529137860000112040345600000000000000000000000000000000001120403456110126304400000000000000000000000011200102400000000000107346835500000000000000112040345610868574500000000000000000000000001120403456111441127610514717471018796969000011004805121094514899107052898710524496990000112040345600000000000000000000103188057900001120403456000000000000000000000000000000000011204034560000000000000000000000000000000000112040345611025431830000000000105308436693541120403456105900124500000000000000000000935511204034561113256899105397490810587624149356)))
 (.node 2 (.node 1 (.leaf 11204034561084711672107726420010692158710000112040345600000000000000000000000000000093571120403456000000000000000000001052645125000011204034560000000000000000000000000000000000112040345610843574900000000000000000000000001120403456000000000000000000000000000000000011204034561098944840000000000010660124750000112040345610864456910000000000103191844200001120403456106114757100000000001058932652000011204034561078914382000000000010359677750000112040345600000000000000000000000000000000001120403456107686131710463211421086982415000011179130880000000000000000000010520364980000112040345610803023070000000000000000000000001120403456106753229100000000001085185638935811204034561089610407109599407510437024800000)
 (.leaf 11204034561048798432110733778010769321189359112040345610766209121100601885104985090200001120403456108081523210534514590000000000000011204034560000000000000000000010880708929360112040345610933707361083849048000000000000001120403456000000000010648230561070380518000011204034560000000000000000000010613116350000112040345610699779310000000000105977285600001120403456106575310900000000000000000000000011204034561079802048107450854310479098390000112040345600000000001082343922000000000000001120403456107160451600000000001042341615000011204034561069178312111434680210669288840000112040345610720164300000000000000000000000001120403456107152144310393283990000000000000011204034561082804236110785063810517662250000))
 (.node 1 (.leaf 11204034561071312080104885114600000000000000112040345610677271500000000000000000000093611120403456106318340200000000001047768366000011204034561075715403000000000010440305370000112040345600000000001075481202108713152993621120403456000000000000000000001062467083000011204034560000000000000000000000000000009363112040345600000000000000000000000000000093641120403456106071168200000000000000000000000011204034561054350818110784342910725641550000112040345600000000001092487322000000000093651120403456106052688100000000000000000000000011204034561074192653000000000000000000000000112040345610712317930000000000104279693900001120403456108312425610716689991026456992936611204034561065827365110081527010734204040000)
 (.leaf 11204034561064237347000000000010372855760000112040345610519800300000000000104789127900001120403456105559468110875079491042460041936711204034560000000000107467673400000000000000112040345610804597780000000000104272598400001120403456000000000000000000001059132738000011204034561076063464000000000010432958880000112040345610654131610000000000102184674700001120403456000000000000000000001012078579000011204034561078513801103661720000000000000000112040345610593164720000000000000000000000001120403456107125857800000000001030029243000011204034561073753987103418786010197540729368112040345600000000000000000000000000000093691120403456107529915200000000000000000000937011204034561030211525000000000000000000009371))))
 (.node 4 (.node 2 (.node 1 (.leaf 11204034560000000000000000000000000000000000112040345610361627390000000000103226675200001120403456106350575910993378791027913085937211204034560000000000000000000000000000000000112040345600000000000000000000000000000000001120403456000000000010168871940000000000000011204034560000000000000000000000000000000000112040345610780668691077095170105141725300001120403456000000000000000000000000000000000011167334401114847942107404087810842932499373112040345609794130680000000000104107840893741120403456108684574400000000001016732044000011204034560000000000000000000000000000000000112040345610754766340000000000000000000000001120403456000000000000000000000000000000000011204034561101319042103589242510409554659375)
 (.leaf 11204034561118492104107136197610840460499376112040345610746298290000000000000000000000001120403456111865093610189809911018877933000011204034561117137175104929742010322789230000112040345600000000000000000000000000000093771120403456109115874810742501740000000000000011204034561079989663107062881200000000000000112040345610953016590000000000000000000000001120403456110103885910731797871024632948000011204034561100971635106668868200000000000000112040345610904172971054005107000000000000001120403456108248077600000000001059418427000011204034561089994991000000000000000000000000112040345610896103100000000000000000000000001120403456111391669510547567261063218361000011204034561103832265102527580200000000000000))
 (.node 1 (.leaf 11204034561069787073107347003310128216060000112040345611013108841057885677000000000000001120403456108555443910681105510000000000000011204034560000000000000000000010632140100000112040345600000000000000000000000000000000001120403456107580027100000000000000000000000011204034561104220762106806777000000000000000112040345600000000000000000000102686770500001120403456110243123010873768770000000000000011204034560000000000000000000000000000000000112040345610787957340000000000000000000000001120403456109739130710768988771046393370937811204034561074198458000000000000000000000000112040345600000000000000000000000000000093791120403456000000000000000000000000000000938011204034560000000000000000000010417320030000)
 (.leaf 11204034560000000000000000000000000000000000112040345610871140730000000000106076889200001120403456108674639800000000001053096254000011204034560000000000000000000000000000000000112040345610856759630000000000105349321900001120403456107607007800000000001074124972000011204034561074790782000000000010545721650000112040345600000000000000000000107077474400001120403456107912069610545017131084327171000011204034561085879586000000000000000000000000112040345600000000000000000000108652851293811120403456106310901211077210341076417053000011204034561082224103109946979000000000000000112040345610785952080000000000103180533800001120403456000000000000000000001087830282938211204034561081195220108577465310426976650000)))
 (.node 2 (.node 1 (.leaf 11204034561070200246109090061710662486439383112040345600000000000000000000104704482000001120403456107102908200000000001058994182000011204034561074311880000000000000000000000000112040345610750998850000000000103717749000001120403456108107721711048291140986238306000011204034561063383655103723460200000000000000112040345610751133150000000000000000000000001120403456106847525500000000001039383279000011204034561074605658111411118710495554150000112040345610720660231067153411000000000000001120403456000000000000000000000000000000938411204034561067467523000000000010516733060000112040345600000000001087761285108314657393851120403456107648635000000000001037794005938611204034560000000000000000000010627146710000)
 (.leaf 11204034561057016181000000000000000000009387112040345600000000000000000000104282906493881120403456106261569409784338150000000000000011204034561067115788110787313010415276900000112040345610167604930000000000000000000000001120403456106664938200000000001035028887000011204034561065564970000000000000000000000000112040345600000000000000000000105013424893891120403456000000000010920239560000000000939011204034560000000000000000000010470960290000112040345600000000001064663672000000000093911120403456104277866700000000001059045825000011204034561068996112000000000009742106449392112040345610716701400000000000105326757600001120403456000000000000000000001043081499000011204034561074086361000000000010721197740000))
 (.node 1 (.leaf 11204034561070779429107401487310460554540000112040345600000000000000000000103710130600001120403456107889902310861246681049831302000011204034561070873214000000000010437435440000112040345610749800080000000000000000000000001120403456107457360910872544030000000000000011204034560000000000000000000000000000009393112040345600000000000000000000000000000093941120403456106118605800000000001035835855939511204034561072378281000000000010163772620000112040345610664204400000000000000000000000001120403456106106985911061268321066467419939611204034560000000000000000000000000000000000112040345600000000000000000000000000000000001120403456000000000010302418581024821589000011204034560000000000000000000000000000000000)
 (.leaf 11204034560000000000103107400810483921070000112040345600000000000000000000000000000000001120403456108296800309956405281043078921000011204034561059828663000000000010194796619397112040345600000000000000000000000000000000001120403456107975401100000000000000000000000011204034561105323279103734197610497429310000112040345611171281081063890243108231817093981120403456000000000000000000000000000000000011204034561057550955000000000000000000000000112040345611091133051062303118000000000093991120403456111683717410514314821037828769000011204034561092990091107085362610585284079400112040345610983676001074388166105131201500001120403456107239713910683370440000000000000011204034561087328110101688719400000000000000)))))))))))))
 (.node 64 (.node 32 (.node 16 (.node 8 (.node 4 (.node 2 (.node 1 (.leaf 11204034561115821277108475250110665364170000112040345611188906451073523720107818154700001120403456109142594410543037420000000000000011204034561076753120000000000000000000000000112040345610782361510000000000000000000000001120403456108928409000000000000000000000000011204034561119423279106538006010725722000000112040345610965111580000000000000000000000001120403456110763733010773195651030303568000011204034561104108216104636811800000000009401112040345610783649580000000000103847078100001120403456000000000000000000000000000000940211204034560000000000000000000000000000000000112040345610896758320000000000000000000000001120403456108241432610300271101073795689000011204034560000000000000000000000000000000000)
 (.leaf 11204034560000000000000000000000000000000000112040345610842269441050518802000000000000001120403456111036292110174777520000000000940311204034561075486638000000000000000000000000112040345600000000001054642641000000000094041120403456000000000000000000000000000000940511204034560000000000000000000000000000000000112040345600000000000000000000000000000000001117519872109711985100000000001053550896000011204034561083532112000000000010780552900000112040345600000000000000000000104923925300001120403456108548516800000000001057732741000011204034561077039713000000000000000000000000112040345610797796671045911778108186004700001120403456109102018010813163181051464186000011204034561081377630000000000000000000000000))
 (.node 1 (.leaf 11204034560000000000000000000010916448569406112040345610793805751088658866000000000000001120403456106190685711077510761072021270000011204034561084783763104940815000000000000000112040345600000000000000000000108877935094071120403456107842905910666920381052428368000011204034560000000000000000000010569840930000112040345610665013480000000000104250960900001120403456107609362100000000001042280960000011204034561075929061000000000000000000000000112040345610848505911051723406000000000000001120403456106614229900000000000000000000000011204034561073944233000000000000000000000000112040345610792581730000000000104688249600001120403456107586116411153647860000000000000011204034561065877118104630772000000000009408)
 (.leaf 11204034561074380474000000000010324169670000112040345610596382080000000000000000000094091120403456000000000010910392391076152769941011204034561059651194000000000000000000009411112040345600000000000000000000107503944400001120403456105741430400000000000000000000941211204034560000000000000000000000000000009413112040345610700663131024953680104612263600001120403456106044145111078627491060972845000011204034561074396437000000000000000000000000112040345610626982220000000000102509353000001120403456107438911000000000001040561279000011204034561075999526000000000010345947939414112040345600000000001094160430104201198194151120403456107596628200000000001056292814000011204034560000000000000000000010507999339416)))
 (.node 2 (.node 1 (.leaf 11204034560000000000000000000010365965120000112040345610778887490000000000103715630700001120403456110027160410262690141056624639000011204034560000000000000000000000000000000000112040345610653591550000000000104069329600001120403456108273395710929355881039070877000011204034561075369273000000000010554231890000112040345610801730091088250970102200106000001120403456000000000000000000000000000000941711204034561038486719000000000000000000000000112040345610717826980000000000105080796600001120403456104703571700000000000000000000000011204034561065038224101645769800000000009418112040345610677866761107621708107627056494191120403456110805867000000000000000000000000011204034560000000000000000000000000000000000)
 (.leaf 11204034561070992357103547635000000000000000112040345600000000000000000000000000000000001120403456000000000000000000001050179928000011204034560000000000000000000000000000000000112040345610838297541044918567105736533200001120403456107645131500000000000000000000000011204034561065425157000000000000000000009420112040345610796068830000000000105071351400001120403456110792428110527031951062752281000011204034560000000000000000000000000000000000112040345610753874970000000000000000000000001120403456111637040210560854821058451590000011104419841103916994106605030910817001409421112040345610983786831068277485105068687800001120403456107112670900000000000000000000000011204034561100132147000000000000000000000000))
 (.node 1 (.leaf 11204034561114154885108317041010478845780000112040345610907688441049367885000000000000001120403456108686908300000000000000000000000011204034561093107175103551661510581411549422112040345611009026061033677832000000000000001120403456111821544010692312691070469262000011204034561100630692102527580200000000000000112040345610816721331078251120104193948800001120403456108317008510272085380000000000942311204034561078273505000000000000000000000000112040345600000000000000000000000000000094241120403456000000000000000000000000000000000011204034561051887286000000000000000000000000112040345610980577241088228531000000000000001120403456000000000010755298560000000000000011204034560000000000000000000000000000000000)
 (.leaf 11204034561088674366108286988800000000000000112040345611038721081029785518103366444100001120403456107680638810704241300000000000000011204034560000000000000000000000000000009425112040345600000000000000000000000000000000001115684864108108805500000000001071884976000011204034561081133840000000000010434512740000112040345600000000000000000000107694769900001120403456108828732010259468911074043141000011204034561073459589000000000000000000000000112040345610832474091053693051108340907100001120403456109064136610567968361077692392000011204034561075909092000000000000000000000000112040345600000000000000000000109324036294261120403456107385073711023999830000000000000011204034561049285039110602464810905343039427))))
 (.node 4 (.node 2 (.node 1 (.leaf 11204034561086081726108347365810485539400000112040345610690593280000000000109455666694281120403456108401762310579896961040064996000011204034561058706804000000000010504939500000112040345610659926540000000000103636957600001120403456108153356210168871940000000000000011204034561075426533106670713710431293810000112040345610688283140000000000000000000000001120403456107462283811138931100000000000000011204034561067095161104570374110505529619429112040345610729914800000000000105449377500001120403456107333147800000000000000000000000011204034560000000000109844061210892819689430112040345600000000000000000000000000000094311120403456000000000000000000001079451186000011204034561082700478000000000000000000000000)
 (.leaf 11204034560000000000000000000000000000009432112040345610685466251107935416102301904100001120403456107526074900000000000000000000000011204034561084923241103179878400000000009433112040345610680070280000000000105878049600001120403456107278728400000000001044514742943411204034560000000000110369848710549567719435112040345610837093441050592621102957592894361120403456108347033200000000001033605536000011204034561073948150000000000010525883790000112040345610674494120000000000103082240800001120403456000000000000000000001058138244943711204034561096892165103217459410360477320000112040345600000000000000000000000000000094381120403456000000000000000000000000000000000011204034560000000000000000000010235298160000))
 (.node 1 (.leaf 11204034560000000000000000000000000000000000112040345610821350390000000000106863614500001120403456107503398810963798461053685368943911204034561068826100000000000000000000000000112040345610565798730000000000105106703094401120403456103471855600000000001068755570944111204034561061607182000000000009503100569442112040345610934090981035140805000000000094431120403456110162688700000000000000000000000011204034560000000000000000000000000000000000112040345610361768321048790748104171808700001120403456000000000000000000001006811930000011204034560000000000103597295510535242659444112040345600000000000000000000102349609900001120403456110936701700000000000000000000000011196170241087453820000000000000000000000000)
 (.leaf 11204034561060420882000000000000000000000000112040345610832521500000000000106112371000001120403456109995711610329664781037618957000011204034560000000000109459149900000000000000112040345611160284381059217788105771557800001120403456109269074410743554511049666333000011204034561077411936000000000000000000000000110991769610826181161072036420000000000000001120403456110270318110623584831050249763000011204034561079671052105800647300000000000000112040345610910335530000000000000000000000001120403456111692779210679100641076400090944511204034561099264006108553180300000000000000112040345611197957621059378849107102395300001120403456110130601900000000000000000000000011204034561088925616104118060310101230710000)))
 (.node 2 (.node 1 (.leaf 11204034561099046568105279043700000000009446112040345610779166370000000000000000000000001120403456000000000000000000000000000000944711204034560000000000000000000000000000000000112040345610569774930000000000000000000000001120403456109098366910659672621053867835000011204034560000000000107263452800000000000000112040345600000000000000000000000000000000001120403456109387967110710490810000000000000011204034561099147828000000000000000000000000112040345610895784441079420073000000000000001120403456000000000000000000000000000000000011204034561087827417000000000010708883970000112040345600000000000000000000108587132600001120403456106698258610418651140000000000000011204034561087060142107949724810739595930000)
 (.leaf 11204034561090757947106732118310916612570000112040345610695406670000000000000000000000001120403456000000000000000000001091627745944811204034561076566512110248287310252710710000112040345610881853331097394972102635984900001120403456108844089000000000001062373176000011204034561064502527000000000010868816779449112040345610665904180000000000103421275200001120403456106808654300000000000000000000000011204034561084801973110047039310496741930000112040345610864619551061340106000000000000001120403456107988437400000000000000000000000011204034561078797516111567977810371360590000112040345610666297191066167750000000000000001120403456107485148600000000001061574820000011204034561084328105000000000000000000000000))
 (.node 1 (.leaf 11204034560000000000109660549910476165530000112040345600000000001100699927105481565494501120403456107717251700000000000000000000945111204034561058261269109799402400000000000000112040345600000000000000000000000000000094521120403456106950731311079279180000000000000011204034561065542220103348992700000000000000112040345610606280470000000000104088910994531120403456106760710900000000000000000000000011204034561071236432000000000010588408699454112040345600000000000000000000000000000094551120403456105242543210285775591065687173945611167334401079082750000000000010274362560000112040345610726278000000000000101738497200001120403456000000000000000000001044420894945711204034561060106309000000000010747344410000)
 (.leaf 11204034561111026106099435203810095429560000112040345600000000000000000000102750931394581120403456000000000000000000000000000000000011204034561084350920000000000000000000000000112040345600000000000000000000000000000000001120403456107653324710912540921041589431945911204034561040906262000000000000000000000000112040345610612854961076471477102547638194601120403456106285794110454151731036680237946111204034561069064521000000000000000000000000112040345610973942491054528556106139447794621120403456000000000000000000000000000000000011204034561056342341000000000000000000009463112040345600000000001017263004000000000000001120403456000000000010581507570000000000946411204034560000000000104187853510489218909465)))))
 (.node 8 (.node 4 (.node 2 (.node 1 (.leaf 11204034561105096436000000000000000000000000112040345600000000000000000000107024502500001120403456106768380600000000000000000000000011204034561076232247000000000010636675930000112040345610887097910000000000103351286900001120403456000000000010795144450000000000000011204034561089564091104322071300000000000000112040345611072000851070616229107750571900001120403456108420355710613703050000000000000011204034561105898128107466582910553115790000112040345610917762820000000000000000000000001120403456107425353710162429490000000000000011204034561117116860107114303310825081009466112040345611020344361083153423000000000000001120403456111538419010562364771057917639000011204034561104871066000000000000000000000000)
 (.leaf 11204034561087630947103002711010186156150000112040345610822377960000000000000000000094671120403456110174171710493209080000000000946811204034560000000000000000000000000000009469112040345609315429731046777482107775933994701120403456106538859900000000000000000000947111204034561092051813108953463710524423280000112040345600000000000000000000000000000000001120403456108137153100000000000000000000000011204034561103802157104276437210549625420000112040345610896638611049928244000000000000001120403456112003488910371138060000000000000011204034560000000000000000000000000000000000112040345610762925060000000000104964585000001120403456107492586800000000000000000000000011204034561073052901108237370210807070540000))
 (.node 1 (.leaf 11204034561095480854106290709810778876220000112040345610852192730000000000000000000000001120403456000000000000000000001099026726000011204034561088678743000000000010930617320000112040345610713504921093897237000000000000001120403456108551989110547433051052270237000011204034560000000000000000000010822674079472112040345610709129670000000000000000000000001120403456000000000000000000000000000000000011204034561083555491106930508910340179710000112040345610819533191030188171103911386600001120403456109635902710480324180000000000000011204034561076560405111657882710580031250000112040345610623653451076120414000000000000001120403456107414688510940232761064574872000011204034561088626763105255891100000000009473)
 (.leaf 11204034560000000000000000000010570844610000112040345600000000001105856718106321586094741120403456108168418300000000001045941305000011204034561085015044000000000000000000000000112040345610606764830000000000000000000094751120403456107051413911079048501042773859000011204034561070890276000000000000000000000000112040345600000000000000000000000000000094761120403456106603942100000000000000000000000011204034560000000000109068911900000000009477112040345600000000000000000000102370897500001120403456000000000000000000000000000000947811204034561071099874000000000010433269360000112040345600000000000000000000000000000094791120403456106964936600000000001062288778000011204034561111246715103242960710380110820000)))
 (.node 2 (.node 1 (.leaf 11204034560000000000000000000000000000009480112040345600000000000000000000000000000000001120403456107922500400000000000000000000000011173439600000000000000000000000000000000000112040345610678307830000000000102804784200001120403456107415355810844962291052392947948111204034560000000000107683260710641146700000112040345610630138850000000000000000000094821120403456108273173800000000000000000000000011193548800000000000108837910600000000000000112040345600000000001001022659103941760894831120403456000000000010399189571021217180000011204034560000000000000000000000000000009484112040345600000000001034697887104950144400001119617024111345479600000000000000000000000011204034561057372395000000000010485228680000)
 (.leaf 11204034561083845665000000000000000000000000112040345610721733980000000000105676326200001120403456108158036610216653460000000000000011204034560000000000110177969800000000000000112040345610888609751037731208104868104200001120403456111267644510587782251068345998000011204034561096665226108158601100000000000000112040345611067445341067770813105194137700001120403456109586334600000000000000000000000011204034561101304717106271080400000000000000112040345610975538641039918957000000000000001120403456109156917709900570711063285061000011204034561107371964105128384310581250460000112040345610749436601053924576000000000000001120403456108248915010290607420000000000948511204034561064634849000000000000000000009486))
 (.node 1 (.leaf 11204034560000000000000000000000000000009487112040345611062449680000000000000000000000001120403456000000000000000000000000000000948811204034561114753564104236171910594654090000112040345600000000000000000000000000000000001120403456110108537810435763901040425006948911204034561019404582000000000010219100260000112040345600000000000000000000000000000000001120403456106800712800000000001067158152000011204034561079275562104803912910412634750000112040345610827902591053995041109671571100001120403456107938886700000000000000000000000011204034560000000000000000000010953854119490112040345610962647161091823259105652354300001120403456109115750700000000001090544976000011204034561070366785106226453100000000000000)
 (.leaf 11204034560000000000000000000010831981999491112040345610635119330000000000000000000000001120403456000000000000000000000000000000000011204034561082565941109524738410471039620000112040345610746722091069519838000000000000001120403456108406300600000000000000000000000011204034561085677786111650690810475976450000112040345610767922781074335318000000000000001120403456107555144011085999241052082814000011204034560000000000110491336710844617099492112040345610843411831040120283104049269894931120403456000000000010932696651074584633000011204034561076247476000000000010386436140000112040345610782559140000000000000000000000001120403456107946096300000000001042586502949411204034560000000000111194309900000000009495))))
 (.node 4 (.node 2 (.node 1 (.leaf 11204034560000000000000000000000000000000000112040345600000000000000000000000000000094961120403456107416254600000000001063994874000011204034560000000000110599969210537770189497112040345600000000000000000000103411449994981120068305000000000000000000000000000000000011204034561084174709000000000010322394810000112040345610594530380000000000000000000094991120403456107169744500000000000000000000000011204034561108251066103962367810517374710000112040345600000000000000000000000000000095001120403456107510704500000000001017479990000011204034560000000000000000000000000000000000112040345610426300880000000000102525101300001120403456107396914310996537621067556791950111204034561064593359109029611310244697259502)
 (.leaf 11204034561070590828000000000010391362489503112040345610937764361050562422000000000000001120403456105983050900000000000000000000000011204034561057408684000000000010001817129504112040345600000000000000000000000000000095051120403456000000000010537098281061236091000011204034561113942276000000000000000000000000112040345610613886420000000000000000000000001120403456108501632310232222711040222654000011204034561066149941096660923409998442840000112040345610860960940000000000104893994000001120403456000000000010782402150000000000000011204034561088549456105191802110694992399506112040345611202019931057202844106554463200001120403456110937077410857134161019202615000011204034561096848091106885462110419592000000))
 (.node 1 (.leaf 11204034561105048932104375758400000000009507112040345610931196111049562500000000000000001120403456109145772210845805351040363738000011204034561099668050104924373300000000009508112040345610748961591030027110000000000000001120403456108639159310437173181043814546000011204034561079579179000000000000000000009509112040345610987743191045777560000000000095101120403456107288853500000000000000000000000011204034561117598918000000000000000000000000112040345600000000000000000000000000000095111120403456000000000000000000000000000000000011204034561105275216104597888710535111260000111568486410769084561083658836103474925000001120403456000000000000000000001057289524000011204034561083382702000000000010629070920000)
 (.leaf 11204034561087333001000000000010659294390000112040345610881918851030161328109028384600001120403456108644046500000000000000000000000011204034561089381633108401430410701588090000112040345610820929060000000000109062505300001120403456108359846810979604690000000000000011204034560000000000000000000010936888090000112040345600000000000000000000109242622095121120403456109229515310945840550000000000000011204034561083054030000000000010615893820000112040345600000000000000000000102439024500001120403456109062682700000000001031970793000011204034561089853674102991973610371535920000112040345610801875421116661455106227928800001120403456107552100611091146701067196499000011204034560000000000110496936110906071899513)))
 (.node 2 (.node 1 (.leaf 11204034560991796532109087303910592299150000112040345610938833511096382467106733628100001120403456108392331210573756501035246225951411204034561074128107104375758400000000000000112040345610757190230000000000105880818700001120403456106829217311163412590000000000951511204034561060504718000000000000000000000000112040345610627600961029114429000000000095161120403456106227862300000000001061754700000011204034560000000000110589205510507387499517112040345600000000000000000000103449729595181120403456108388656200000000001072200621000011204034561059243961000000000010407692679519112040345610731617770000000000105965537200001120403456106734251600000000001069528631000011204034561055181525000000000010554942739520)
 (.leaf 11204034561078241717000000000000000000000000112040345611135643611062588331107899161400001120403456106424568510168335070000000000000011204034561073649130110779805210664080150000112040345610430559601073538820000000000000001120403456105816421200000000000000000000000011204034561097794496101688719410320149730000112040345610578353790000000000000000000000001120403456106158409700000000000000000000000011204034560000000000109474899610565963649521112040345600000000001034617356104186330500001103626240104225441200000000000000000000000011204034561065885356000000000000000000000000112040345611000409851048643109104955741200001120403456109947985610395834121046353594000011204034561119193461104464342110489852870000))
 (.node 1 (.leaf 11204034561094775971109067202710560083759522112040345610944832341053575610105081723995231120403456110873198610750965841059281630000011204034561101225829107111619010130368530000112040345611155292391087252726107380160700001120403456109904802910445494680000000000952411204034561110113584109321807510423091130000112040345611013227661068185210000000000095251120403456109321991710430596510000000000000011204034560000000000000000000000000000009526112040345610765723840000000000000000000000001120403456111515067700000000000000000000000011204034561073883155000000000000000000000000112040345611165968331016242949000000000000001120403456105216451200000000001031802411952711204034560000000000000000000000000000000000)
 (.leaf 11204034561104797765105133081910688367180000112040345600000000000000000000105992474300001120403456107465019300000000000000000000000011204034561099465063102353097210643232060000112040345610921431911046314431107588893100001120403456107787140200000000000000000000000011204034561097594342104931084210616281650000112040345610849693241113373173105852971000001120403456104619316600000000001096541111000011204034561079107073109371205910931331990000112040345610638390220000000000108942220195281120403456110746257410868492340000000000000011204034561090840562108576186010686704330000112040345600000000000000000000102789254600001120403456109249209210298928920000000000000011204034561087894140103620112510426138980000))))))
 (.node 16 (.node 8 (.node 4 (.node 2 (.node 1 (.leaf 11204034561076819952111668612310627310250000112040345610995670651075410318106091291095291120403456109273767210765473941070605848000011204034560000000000110199360710722020909530112040345610809695791068336205104021360595311120403456106511701000000000001041803083000011204034561066326227000000000000000000009532112040345610359834241116152712108665151100001120403456105994925800000000000000000000000011204034561078089103104133495400000000009533112040345610541600950000000000106397909500001120403456107176894110924278681020622647953411204034560000000000000000000000000000009535112040345610842150280000000000000000000000001120403456105210995310847877330000000000953611204034561045296658000000000010670029540000)
 (.leaf 11204034561074103356000000000000000000000000112040345600000000000000000000104629857195371120403456108226553700000000001043956378000011204034561113862186105380713610799595590000112040345610373843890000000000000000000000001120403456105989780211074652341069037154000011204034561064546769108111205500000000000000112040345609771281450000000000103854465200001120403456109403003110272890681020887617000011204034561048917383000000000000000000000000112040345610656790130000000000000000000000001120403456000000000000000000001041062551953811204034560000000000105874131510410525650000112040345610664994350000000000103324810200001120403456107848860210095186411044659821000011204034561087037248102884599400000000000000))
 (.node 1 (.leaf 11204034561116421159104941150510277405930000112040345610964482411050689929106903767000001120403456111743468710550016741076323989000011204034561110467791105643444810441531070000112040345611122263571067104757106671682695391120403456109573584810256784561030894604000011204034561102162151105729847510473811729540112040345610956713341105721452000000000000001120403456106669715510704107080000000000000011204034560000000000000000000000000000009541112040345610850379170000000000104842171595421120403456111193108310356508331036514052000011204034561067250602000000000000000000000000112040345610673965220000000000000000000095431120403456000000000000000000000000000000000011204034561091663092000000000010509865669544)
 (.leaf 11204034561074263881108474537110359271559545112040345600000000000000000000108175301900001120403456108151492200000000001068490385000011204034561097442099104207986210760935340000112040345610911715941060744515107230952600001120403456107395587600000000000000000000000011204034561098910636102139691010667313680000112040345610932079501115637023106080660200001120403456107591212000000000001082323535000011204034561084693179108355733410695292110000112040345611072767521089833900000000000000001120403456000000000000000000001089193461000011204034561090645318000000000010545047110000112040345600000000000000000000103321588300001120403456109545509510180683101032360660000011204034561089222132104547557010006685740000)))
 (.node 2 (.node 1 (.leaf 11204034561074721819111681760110509002420000112040345610923659701101010724105363564000001120403456102772608111048337801075918398954611204034561074659915000000000000000000000000112040345610765772701069561781102441107595471120403456000000000000000000000000000000954811204034561067732401111311519710939266309549112040345610750843910000000000000000000000001120403456108402020500000000001030354379955011204034561075223537000000000010518721910000112040345610629296971106690861105731108500001120403456108378186000000000000000000000000011204034560000000000000000000000000000009551112040345610764545610000000000104172869195521120403456106030647800000000001055408710000011204034561073934338000000000010153194190000)
 (.leaf 11204034561073778780000000000010639505800000112040345610941652471026000578103131992500001120403456000000000000000000000000000000000011204034561069199066108184060600000000000000112040345610637488780000000000000000000000001120403456109495967010168335070000000000000011204034560000000000000000000000000000000000112040345610557899680000000000104671426200001120403456104336633910439387771054343270955311204034560000000000105797963010635268140000112040345610656626050000000000000000000000001120403456109125101500000000000000000000000011204034561083268332103424154710446671780000111044198410846718111057315252102841394700001120403456109136611410746960281051161113955411204034561092885234103504685310696331740000))
 (.node 1 (.leaf 11204034561119169871104726066610659039810000112040345611196343901044502492103770828900001120403456111664618510910334710000000000955511204034561103895492108533886500000000000000112040345610742662761079789172105934353100001120403456000000000000000000000000000000955611204034561082964681000000000010657439230000112040345611108039430000000000101918428600001120403456104096236500000000001043188178955711204034561066516523000000000010415300810000112040345600000000000000000000000000000000001120403456000000000000000000001065521283000011204034560000000000000000000009742106669558112040345600000000000000000000108425237200001120403456108040857400000000001082468712000011204034561097262969102463155710727062050000)
 (.leaf 11204034561085898848105772629410831506280000112040345610754796710000000000000000000000001120403456108931125710860726581064380150955911204034561088510061111587487910801889480000112040345610827528961078482226107819701800001120403456107058500600000000001074279597000011204034561087628537109491708200000000000000112040345600000000000000000000109169501100001120403456109308290510413349541071651683000011204034561099430877000000000000000000000000112040345600000000000000000000104645506000001120403456107810587610612193100000000000000011204034561072831652111689485510393098190000112040345610870083361034590513000000000000001120403456103906412411038594431088914395956011204034561060630614000000000000000000000000))))
 (.node 4 (.node 2 (.node 1 (.leaf 11204034560000000000000000000000000000009561112040345600000000000000000000000000000095621120403456106550001711160216671090766793000011204034561079188954102527580200000000009563112040345610755178060000000000000000000000001120403456104947378200000000001073317297000011204034561076870074109771520710481530459564112040345610784750831026537449104465371895651120403456108312840010840765891067993009956611204034561065527833000000000000000000000000112040345610762624250000000000000000000000001120403456106890044000000000001052972223000011204034560000000000000000000000000000009567112040345600000000000000000000000000000000001120403456108028201510382815000000000000956811204034561053674193000000000010183029950000)
 (.leaf 11204034561066017913000000000000000000000000112040345610929434601033275179102477177200001120403456000000000010476230540000000000000011204034561040136523000000000000000000009569112040345600000000000000000000000000000095701120403456000000000010437038961048647926000011204034561060752182000000000000000000000000112040345610888078791021611658000000000000001120403456109418330010509214551020084722000011204034561093534611105942079210157379880000112040345611150034051054135969106544017600001120403456112032251410456164991041650274000011204034561074026630000000000000000000000000112040345610998449941046831170000000000000001120403456108251914110252758020000000000957111204034561082645912000000000010387578500000))
 (.node 1 (.leaf 11204034561100952631107354636900000000009572112040345600000000000000000000000000000095731120403456106806284500000000000000000000000011204034560000000000000000000000000000000000112040345600000000000000000000104903799600001120403456105719408710694879610000000000957411204034560000000000000000000010935599110000112040345610801720280000000000106673531600001120403456109385656900000000001067824253000011204034561066371400106720961510930950600000112040345610833460860000000000000000000000001120403456109382654310768590311072126837957511204034561088899307111515444210873079630000111935488010799040030000000000107582423895761120403456108404297410657659361070419738000011204034561076673131107575341200000000000000)
 (.leaf 11204034560000000000000000000010926282840000112040345610926680060000000000106363709400001120403456109486445710168335070000000000000011204034560000000000000000000010502348240000112040345610837537431042348297000000000000001120403456108259874710990956051078986708000011204034561092951125107341299110605871310000112040345610420822781100554961107550274995771120403456107241822700000000000000000000000011204034561074868410106333659510410566259578112040345610684903791115964821108446726695791120403456101680773810560619940000000000958011204034561072353887000000000000000000000000112040345610724883900000000000106620226200001120403456108261694600000000001060740137000011204034561063444355107950773410584967399581)))
 (.node 2 (.node 1 (.leaf 11204034560000000000107595096400000000009582112040345610658026860000000000000000000000001120403456106703417600000000000000000000958311204034561074466918000000000010148978730000112040345600000000000000000000000000000000001120403456107401445410250878981059829427000011204034561071557833000000000000000000009584112040345610617273410000000000000000000000001120403456109259777100000000001017108106000011204034560000000000102161165800000000000000112040345600000000000000000000000000000095851120403456106418968300000000000000000000958611204034560000000000102906074210441137620000112040345600000000000000000000000000000000001120403456109351629610293023340000000000000011204034561087958604102731591200000000000000)
 (.leaf 11204034561111292723105967916210703229179587111280128010941500081091535844000000000000001120403456112034130810560972930000000000000011204034561070911239000000000000000000000000112040345611078098401048347830101934036300001120403456111574118210774164541052087289000011204034561081162345000000000010606769420000112040345610821021921057988018000000000095881120403456000000000000000000000000000000958911204034561068602510000000000000000000000000107793612800000000000000000000000000000000001120403456000000000000000000001021273753959011204034560000000000000000000000000000009591112040345600000000001050210101106067040095921120403456000000000000000000001082171244000011204034561086946659000000000010700802270000))
 (.node 1 (.leaf 11204034561095876197103528844510656927550000112040345610746144991074216200109648883200001120403456107408401200000000000000000000000011204034561095688721105718774510708863739593111358771200000000000000000000107570137595941120403456110364339910799280031073995557000011204034561096510906111418306710800334180000112040345610982894450000000000106815578500001120403456107558179000000000000000000000000011204034560000000000000000000010871573580000112040345610938423090000000000102445580500001120403456000000000000000000001058079144000011204034561091475614103706011900000000000000112040345610699340171088068728108541507100001120403456108381416211098037421064687787000011204034561076619771000000000010429885700000)
 (.leaf 11204034561025022668110441225310807639959595112040345610918543421038362031000000000000001120403456000000000000000000000000000000959611204034560979344348111417598910952466999597112040345610647984440000000000107382137800001120403456107769433100000000000000000000000011189616641068910196000000000010676619780000112001024010797368011085197727000000000095981120403456000000000011030337951051342115959911204034561033163913000000000010620213920000112040345600000000000000000000000000000096001120403456107307379700000000001059695795000011204034560000000000000000000000000000000000112040345610748687290000000000102013057000001116340224000000000010597311711064808580960111204034561085418215000000000000000000000000)))))
 (.node 8 (.node 4 (.node 2 (.node 1 (.leaf 11204034561089150522000000000009999996250000112040345600000000001043240845102406491500001120403456106363556510572716311047997289960211204034560000000000000000000000000000009603112040345610820797440000000000000000000000001120403456000000000000000000000000000000000011204034561086064440103484552600000000000000112040345611200161601053558833105812062796041120403456112026174010660343710000000000000011204034561076281286107676340100000000000000112040345611079150281066982284000000000000001120403456111190583510247926191048447269000011204034561079493960000000000010704500710000112040345611090845811087460134000000000096051120403456000000000000000000000000000000960611204034561088517099105566269600000000000000)
 (.leaf 11156848640000000000000000000000000000009607112040345600000000000000000000000000000096081120403456000000000000000000001047532090000011204034561090615132000000000010737567990000112040345611016799891016189262106318533800001120403456106854898210577598481095060088000011204034561066092026000000000000000000000000111712665610782416750000000000108171104300001120403456109219727210678924481041393081000011204034561075748299111661281410688693840000112040345610891060481094551234106662910800001120403456107870931000000000000000000000000011204034560000000000000000000010845292750000112040345600000000000000000000100067167700001120403456109908957610061766201038180259000011204034561086603483000000000000000000000000))
 (.node 1 (.leaf 11204034561084483560111619734210496987290000112040345610856993151098046138106492289900001120403456104562059311056553921080419687960911204034561086719378105000541909333401220000112040345600000000000000000000000000000096101120403456000000000010944457470000000000961111204034561067203986000000000010581953910000112040345610737449030000000000000000000000001117126656000000000010820436101066041103000011204034560000000000000000000010827884780000112040345600000000001099690725102784315996121120403456106645364200000000000000000000961311204034561067794888000000000010598893200000112040345600000000000000000000000000000096141120403456000000000000000000000000000000000011204034561066825727000000000000000000000000)
 (.leaf 11204034561110685652106641269710795407009615112040345611005770041029060742105154035500001120403456000000000010500591061019607301000011204034561059376584109970089610524968179616112040345600000000000000000000105232597400001120403456108118320710216116580000000000000011204034560000000000000000000010469211070000112040345610934681271068471262000000000000001120403456110734722910461265260000000000000011204034561079483335107700876700000000000000112040345611109278561078423087103343768100001120403456109472925710642324981050155443000011204034561075698693000000000010517652390000112040345610960770781066942018000000000096171120403456000000000000000000000000000000961811204034561106609734109499226500000000009619)))
 (.node 2 (.node 1 (.leaf 11204034560000000000000000000000000000000000111961702410909337900000000000105673660200001120403456108918617200000000001067407627000011204034560000000000000000000010499117050000112040345610595446751042167103110145735400001120403456110621001010927160161096190370000011204034560000000000111708017800000000000000112040345610862639271097207382107540798800001120403456107057135010336375670000000000000011204034560000000000000000000010845287510000112040345600000000000000000000103835307000001120403456109621302210348992141053925877000011204034561083209907102514158510243060540000112040345610850663251116568132102451201400001120403456109952321710759056651043911588000011204034561067450158111040074910967892539620)
 (.leaf 11204034561085126820106571224800000000009621112040345600000000000000000000000000000096221120403456000000000010956313721082978611962311204034561061302844000000000000000000000000112040345610759180890000000000000000000000001120403456000000000000000000001065881267962411204034560000000000110480269010389056999625112040345610780836250000000000105478639596261120403456105758863700000000001066826942962711204034560000000000000000000010605791319628112040345600000000000000000000000000000000001120403456106591144400000000001053393162000011204034561111397325106410834710728765699629112040345611044634821032362498103895556500001120403456000000000010498712011045737622000011204034561060867240000000000010203290179630))
 (.node 1 (.leaf 11148984321047526484107822092110890482730000112040345610902465211038388874000000000096311120403456000000000000000000001054398904000011204034561083703325103212090700000000000000112040345610826691401021611658000000000000001120403456107005698510584292590000000000000011204034561108900933108910199410789538580000112040345611091538361061272997104262068900001120403456107773192000000000001065622521000011204034561074050256000000000010460056940000112040345610650739930000000000000000000000001120403456111685015710855894751041361870963211204034560000000000000000000000000000000000112040345610573635530000000000000000000000001118175232102994711610511697581083457574000011204034561093736958108321067511016004090000)
 (.leaf 11204034561091518771110931497510836998310000111489843200000000000000000000000000000000001120403456107208309400000000000000000000000011204034560000000000000000000010742094220000112040345610983600081042261056105674237100001120403456108209113611164937491074224963000011204034561086429724102511474110244851940000112040345610769396281067439463000000000000001120403456107112668411162624981086860449000011204034561059967142105358903200000000009633112040345600000000000000000000000000000096341120403456000000000010982924481083499495963511204034561067941605000000000010499161410000112040345610750422470000000000000000000000001120403456000000000000000000001065949718963611204034560000000000000000000000000000009637))))
 (.node 4 (.node 2 (.node 1 (.leaf 11204034561070065542000000000010455426849638112040345600000000000000000000000000000096391120403456106143008200000000000000000000000011204034561099613071000000000000000000000000112040345610940250021044858169000000000096401120403456110208746410300002660000000000000011204034560000000000105759375410412212280000112040345610668246790000000000000000000000001120403456109011908410525488450000000000000011204034561056420187000000000000000000000000112040345610680797650000000000000000000000001120403456108710410910514449040000000000000011204034561074026919106012711300000000000000112040345611142021081067358093104608387800001120403456109982962010406974190000000000000011204034561083024647000000000010747169380000)
 (.leaf 11204034561078366694000000000010598528680000112040345610787336200000000000000000000000001120403456110735437810516764300000000000000011204034560000000000000000000000000000009641112040345610691406390000000000000000000000001120403456108988264510755986421095446456000011204034561092589722110988152010793878430000112040345610749552611066150134000000000000001120403456000000000000000000001058237132000011204034561088475472099177505810547324470000112040345610847488861116543084103390808900001120403456108433007800000000001042030781000011204034561088537963110127554210724006370000112040345610776340041115997182109054703000001120403456000000000010336644100000000000964211204034560000000000000000000000000000009643))
 (.node 1 (.leaf 11204034560000000000108727432600000000009644112040345610586612880000000000106823121100001120403456108164552000000000000000000000000011204034560000000000000000000000000000009645112040345600000000001078345492105995061496461120403456107426286600000000001050180855000011204034560000000000000000000010525501299647112040345610594580710000000000000000000000001120403456111692657500000000000000000000000011200102401107092644000000000000000000000000112040345610705349181024577870106163249000001120403456000000000010499349540000000000000011204034561052449423000000000000000000000000112040345610906383571021611658000000000000001120403456104945328100000000001033474527000011204034561066500836000000000000000000000000)
 (.leaf 11204034561078509200108355859300000000000000112040345610746911541038415718000000000000001120403456108627269510837173471075691616000011204034561110453953106499586110481868670000112040345610843740700000000000106441486700001114898432106808979800000000001061750177000011204034561092869291105197170910417608840000112040345611045521381085167108106757252300001120403456000000000000000000000000000000964811204034561083809393000000000000000000000000112040345610883823481074966141109617395300001120403456108242735111134390761082531889000011204034561073565730106716431600000000000000112040345600000000000000000000107799491400001120403456108691300800000000001061641171000011204034561081149477111561293210503081549649)))
 (.node 2 (.node 1 (.leaf 11204034561090071688103217459410349176810000112040345610984056041097671587106651131300001120403456108027575311161461191087505116000011204034561035969868102997342300000000009650112040345600000000000000000000000000000096511120403456107504467100000000001052826933000011204034561075202981000000000010319307750000112040345600000000001093704404102154791796521120403456000000000000000000000000000000965311204034561074562238000000000010771850080000112040345610590252700000000000101886572700001120403456111729886110418181370000000000965410779361281077003998000000000000000000000000112040345610861238121031422974105567446200001120403456000000000000000000000000000000965511204034560000000000104108665100000000000000)
 (.leaf 11204034561083341569103002711000000000000000112040345610685969310000000000104071887200001120403456108351623600000000000000000000000011204034561090332702104899878600000000000000112040345610740895911055199645000000000000001120403456111126016110469519651052638158000011204034561083373240000000000010673701830000112040345610889574021041777872104296376400001120403456111386507710979582671068420210000011204034560000000000105878493600000000009656112040345600000000000000000000000000000096571120403456106651805000000000000000000000000011204034561101854954108323626010582592880000112040345610882428331114531221108624123200001120403456106337429311008019010000000000000011204034561070134286000000000010812317370000))
 (.node 1 (.leaf 11204034561089239328000000000010557067970000112040345610910442601021557971000000000000001120403456109603910610973961261065738960000011204034561115707242110357470210817379990000112040345610168662561044160237000000000096581120403456000000000000000000001020429016965911204034560000000000111315682610627378969660112040345610576706440000000000105358692600001120403456107253540800000000000000000000000011204034561034838413109334012910646568289661112040345600000000000000000000000000000096621120403456109165817810666173791076088296000011204034560000000000000000000000000000000000112040345611204034560000000000000000000000001120403456000000000000000000001021064005966311204034561080163681103202695410589829310000)
 (.leaf 11204034560000000000105033089710604876840000112040345610800309270000000000000000000000001120010240107983957400000000001038841859000011204034561075819464098252745610370642690000112040345610870380151046804326000000000000001120403456108101604310486330430000000000000011204034561116692622107640101310771870440000112040345610822430890000000000107442562700001120403456108339108710346576220000000000000011204034561099312812104840151710614473090000112040345610235749951061214277000000000096641120403456109290482000000000000000000000000011204034561084707305107873388510618120690000112040345610681919461116368011108254391000001120403456106317041611014434720000000000000011204034561072540944000000000010641141390000)))))))
 (.node 32 (.node 16 (.node 8 (.node 4 (.node 2 (.node 1 (.leaf 11204034561092232689000000000010634747850000112040345610674049270000000000000000000000001120403456109055988011052349651061593514000011204034561118449510109092829910825398020000112040345600000000000000000000000000000096651120403456000000000011076892101061469135966611204034561072620099000000000010326452400000112040345600000000000000000000000000000096671120403456108476880400000000001043059939000011204034561093988125105441447110495672570000112040345600000000001059033239000000000096681120403456000000000000000000001052177038000011204034560000000000000000000000000000009669112040345610744818670000000000107563011900001120403456000000000010393820861053599849000011204034561084892318104117389210225171630000)
 (.leaf 11179130880000000000000000000000000000000000112040345610834619831016404011103163895000001120403456108167404111030554480000000000000011204034561089035456105592777600000000000000112040345611196678371078868102105232103600001120403456108454344700000000001041844136000011204034561105713725105294143210540441980000112040345610994925791075255129105841316100001120403456000000000010153839560000000000967011204034560000000000000000000009967816289671112040345610565759471028148062000000000000001120403456111038719510689049531069908131000011204034560000000000111354540210548125830000112040345610691012961090271576000000000000001120403456108366525810075859061086345076000011204034561091892933000000000010817650860000))
 (.node 1 (.leaf 11204034561109636209108439284010723218790000112040345610841511130000000000000000000000001112014848110256209710993265021082561461000011204034560000000000000000000000000000009672112040345600000000001102627367107518928496731120403456106107121700000000001045900424000011204034560000000000000000000010791766039674112040345610852143760000000000000000000000001120403456000000000000000000001056316419967511204034561102830577103275173010612149790000112040345610456564961099800406104260586996761120403456106469697510251147410000000000000011204034560000000000000000000000000000009677112040345600000000001054078927107018171400001120403456108518963200000000000000000000000011204034561093640331000000000010551894030000)
 (.leaf 11204034561088930919102830912300000000000000112040345610951394131079207002000000000000001120403456109311883910581004261028623362000011204034561109043786105379035900000000000000112040345610798922840000000000106253538500001120403456107331158111004688731038621749000011204034561113724865105896613010392950190000112040345600000000000000000000000000000096781120403456109460155610362145471053344172000011204034561107696824107900819210641419230000112040345610786930281104668105000000000000001120403456107213023010983179290000000000000011204034561084667134101602820110801401150000112040345610902613001030725042107620930800001120403456110960792811084519961065628341000011204034561086952852098596343010285451220000)))
 (.node 2 (.node 1 (.leaf 11204034560000000000000000000000000000009679112040345600000000001103672377107331747696801120403456106357736400000000000000000000000011204034560000000000000000000000000000000000112040345610787326810000000000000000000000001120403456109924728010318524711025810620000011204034561072660415109114220900000000000000112040345610736309600000000000104883777600001120403456000000000000000000000000000000968111204034560000000000105240791610616040770000112040345610839229270000000000102273697796821120403456109152444910492001121024342428000011204034561094368952105009937110530849190000112040345610898382001087148288000000000000001120403456109801658910676374340000000000000011204034561108946129000000000000000000000000)
 (.leaf 11204034561082308247000000000010617566010000112040345610739036611091814975106708579600001120403456110475933010831561491055512108000011204034560000000000000000000000000000009683112040345600000000000000000000000000000096841120403456109113896210558975770000000000000011204034561115706584107574292610865522460000112040345610755352291074544194104365093200001120403456107046765011080709960000000000000011204034561082483836104261002210752113890000112040345611146739051066518394107480261100001120403456109009034200000000000000000000000011204034560000000000000000000000000000009685112040345610528030201105248859108328261096861120403456107090247300000000000000000000000011204034560000000000000000000010507726780000))
 (.node 1 (.leaf 11204034561075938486000000000000000000000000112040345600000000001091093345107983676996871120403456106777313600000000000000000000000011204034560000000000109076786700000000009688112040345600000000000000000000099884444800001120403456000000000000000000000000000000968911204034560000000000105851817810651967190000112040345610811921870000000000000000000096901120403456109854575110372614461028541874000011204034561072675103000000000010556979950000112040345610941018981030027110000000000000001120403456109792307910667515971029645942000011204034561114177615105263273100000000000000112040345610989831661050793948105079509100001117126656107848612310816849971072447032000011204034561115998604106555622010644665430000)
 (.leaf 11204034560000000000000000000000000000009691112040345610890060370000000000000000000000001120403456111651197410729969161085241677000011204034561071292711108236803910280982320000112040345610865647611109037836000000000000001120403456108309424310419657771081079104000011204034561041048868109337997510634985309692112040345611066416831068921730105873492600001120403456108452661900000000000000000000000011204034560000000000000000000000000000009693112040345610717391781107868726109444391696941120403456106772742700000000000000000000000011204034561061603861106144244710341252559695112040345610794320810000000000000000000000001120403456103476070111066649611074146288969611204034561066121470000000000010555680530000))))
 (.node 4 (.node 2 (.node 1 (.leaf 11204034561068960125109120921300000000009697112040345600000000001060514667000000000096981120403456106103707600000000000000000000969911204034560000000000106776997410425685570000112040345611024282061021611658104448900400001120403456108044598710216116581041286529000011204034561078208703000000000000000000000000112040345610721220431036308500103270016600001120403456109290063410576759620000000000000011204034561109799517106244740200000000000000112040345611127718671064801246108712721700001120403456109096383110556123640000000000000011204034561082450581000000000000000000000000112040345611149627861083256393109159916600001120403456107286152310967170681065193970000011204034561100410493110043290700000000000000)
 (.leaf 11204034561079757676104660299910720683150000112040345610284602521106549775108995561797001120403456110664471710798755741067263138000011204034561081449600103724802400000000000000112040345600000000000000000000104131366097011120403456106787051111125246391090575689970211204034561077891429000000000010594855520000112040345600000000000000000000104907550397031120403456110424820400000000000000000000970411204034561075131925110382353010474352759705112040345610768365121009303893105717469297061120403456107566083610861542381044183366000011204034561080502463109083487100000000009707112040345610738744770000000000000000000097081120403456000000000010615934420000000000000011067719681105821036105018661310659557440000))
 (.node 1 (.leaf 11204034561086482857104954907910530764660000112040345610790400390000000000103269272400001120403456105268967310507838821043651778970911204034561093841490105951306700000000000000112040345611157978061034577091107016183500001120403456109768450711010723281061274847000011204034561099140101105109593810495000570000112040345611055227681097968963110072439400001120403456108509625011032534711040215255000011204034561079443368110362078700000000000000112040345610786944291025114741107980948900001120403456101641743211077682991059741564971011204034561099424061110819797910526699560000112040345610917766211034523404105218568800001120403456108604946400000000000000000000971111204034560000000000111450880710888680559712)
 (.leaf 11204034561069240145000000000010592869600000112040345600000000000000000000107356326997131120403456107377914100000000000000000000971411204034560000000000110798386010464327879715112040345611008782481013491486106630044000001120403456000000000010556828290000000000000011204034561068862104105017319110464951950000112040345610758580770000000000000000000000001120403456000000000010596623841060258022000011204034561078755682103467104300000000009716112040345610827693571053612520000000000097171120403456000000000000000000000000000000971811204034561100496421106396070700000000000000112040345611199396611064685483107084035400001120403456110224410710993917761040643550000011204034561102604109109098272011025608730000)))
 (.node 2 (.node 1 (.leaf 11204034561082917904110831271910475113330000112040345610777222731098749313000000000000001120403456108234014510722092251082606035000011204034561015856402110625218910504361569719112040345610974212271100031197000000000000001120403456109627781410353018670998471704000011204034561090903775000000000000000000009720112040345600000000001109990205108352305997211120403456106921721000000000001063904785000011204034560000000000000000000010258768979722112040345610780022600000000000000000000000001120403456108080559410340939070000000000972311204034561080768919000000000010667177210000112040345610695559511079391132106279821500001120403456107157087700000000001044276529000011204034561075568238000000000010334416870000)
 (.leaf 11204034560000000000104603257410295450220000112040345610860324891038268078104597507600001120403456109871328310475223911037846345972411204034561033485901000000000000000000009725112040345610951596491069401558102487706100001120403456111990494310658833761076846170000011204034561096281913108567315110581616440000112040345610911057821103096814109797801600001120403456107860017011045954910000000000000011204034561074448443106714082810596130550000112040345609938452320000000000108337995700001120403456107068276711070952441068706272972611204034561092615256110774428610758547170000112040345610796004990000000000000000000000001120403456108691623100000000000000000000972711204034560000000000111603853610845669559728))
 (.node 1 (.leaf 11204034561062650507000000000010590572410000112040345600000000000000000000104758504197291120403456000000000000000000000000000000000011204034561094108262104879074810457327679730112040345610774516100000000000105761316900001120403456106713454510775120841050784960000011204034561059634199000000000000000000000000112040345610783496230000000000000000000097311120403456000000000010427845051048903863000011204034561087424208105330381910223892620000112040345610911026231067797656000000000097321120403456108698907210492974201040677875973311204034561107745043107429295600000000000000112040345611164930461076929076106660338100001120403456108533759410438716691048951392000011204034561100501126110346570310893667020000)
 (.leaf 11204034561082152333110032637110464234860000112040345610763092371041844981105070482100001120403456099596694610386036231084854346000011204034561069558274110561780010487397419734112040345611006256021080310943105784803100001120403456108946001410251147410000000000000011204034561085834260000000000000000000009735112040345600000000001113533579108255551197361120403456107737833600000000001057509450000011204034561074636515000000000010299994649737112040345600000000000000000000103167743500001120403456108114794110500926601076637614973811204034561067490734000000000010657509650000112040345610655263650970045207104932832300001120403456106923601700000000000000000000000011204034561080305201000000000010455140849739)))))
 (.node 8 (.node 4 (.node 2 (.node 1 (.leaf 11204034560000000000103640245210422797830000112040345610816102041021611658000000000000001120403456109210513610724877270000000000974011204034561093018487000000000000000000000000112040345611095197211074070657101617666800001120403456111738563510766254081074893596974111204034561090778021110926629410692046879742111896166411000075181082195653108279534800001120403456108034057610962128081038794549000011204034561081641150102498052310724162070000112040345610807678411065900992107719120697431120403456108464947211082702781065967026974411204034561102716537110844232310440454440000112040345610849735430000000000000000000000001120403456108521864400000000000000000000974511204034561074671877000000000010374377760000)
 (.leaf 11204034561052733461111553365910826860329746112040345610771290730000000000103437982300001120403456108133532610869123580000000000000011204034561086879273102043054210375612630000112040345610791720890000000000109335555700001120403456106060538110861427031066237945974711204034561069115859000000000000000000000000112040345610708522090000000000101872915697481116733440000000000000000000000000000000000011204034561086289942103722118010363819390000112040345610918833281049643031000000000097491120403456108825448700000000000000000000000011204034561109380868110413453700000000000000112040345611163372591067988078106355162397501120403456109387279210094112671018507922000011204034561082356048111061599510711230290000))
 (.node 1 (.leaf 11204034561074322089104812637100000000000000112040345610814975661068910825107557977197511120403456108492449511095672621054973897000011204034561086744447110216211310636946700000112040345610865847370000000000000000000000001120403456108714844700000000000000000000975211204034561068303095000000000010585626090000112040345610737850971116565012107110625597531120403456107851211500000000000000000000975411204034561092258131110334689900000000000000112040345610362603151006834287106539279197551120403456107751964200000000001073909535975611204034561055056267000000000010589077680000112040345610682996890000000000000000000097571120403456106919183500000000000000000000975811204034561069894213103467104300000000000000)
 (.leaf 11204034561083794277000000000000000000000000112040345611006890191013276738102034149900001120403456111592453110742896001036309379000011204034561114607906106394896310767176060000112040345610997911411041220869107006991200001120403456107964424211154061001065476926000011204034561087485705102514158500000000000000112040345610800437991097909613108229134600001120403456108748896811101429561067632565000011204034561105793773108659233310701887070000112040345610833778830000000000000000000000001120403456108373994000000000000000000000975911204034561068845360000000000010615302370000112040345610779111131116344327108240272900001120403456000000000000000000000000000000976011204034561091041226108707216110704040250000)))
 (.node 2 (.node 1 (.leaf 11204034561075095557096660923410380892659761112040345610831469530000000000109138414997621120403456107275801610653028841020634541000011204034561075870517000000000000000000009763112040345610687889800000000000000000000097641120403456106975082600000000000000000000000011204034561076047869000000000000000000000000112040345611026924301051595899105534011000001120403456111896650410603569611043586902000011204034561112976548106905427010789141810000112040345611077262761072065780108285100400001120403456107745556111074778170000000000000011204034561088346403101608188800000000000000112040345610680547171112356055107546311800001120403456110717240010824831731061384752000011204034561085037661000000000000000000000000)
 (.leaf 11204034561072842473000000000000000000009765112040345610967800901040194103106719229100001120403456107102615511168686541063134554000011204034560000000000000000000000000000009766112040345610906413791069514804104810716300001120403456108209576200000000001045493483000011083448321050313818000000000010784771220000112040345610717549821026725354104131887397671120403456106573879000000000000000000000000011204034561060476163000000000000000000009768112040345610750697030000000000000000000000001120403456109450747410300271100000000000000011204034561100205075101694088210374000540000112040345611195716241067056942101578291000001120403456111564677810748981941078349173000011204034561109819006107295329510652800630000))
 (.node 1 (.leaf 11204034561091753900106163538500000000000000112040345610773535941100232314104193754700001120403456107914015711075354361075311862000011204034561106345602108259516110770801340000112040345610869092710000000000000000000000001120403456107479558800000000000000000000976911204034561107746986108846508910753138640000112001024010818454501116783575105309647100001120403456000000000000000000001031114367977011204034561096183210110020562810274525160000112040345610801994330000000000106717720697711120403456106848167210619071760000000000977211204034561067717520000000000000000000000000112040345610582183690000000000000000000097731120403456106619827600000000000000000000000011204034561096049675000000000000000000000000)
 (.leaf 11204034561095902712102166534600000000000000112040345611195421801066867360104945162000001120403456111411138910645764311072018178977411204034561117264022105746121410735815930000112040345610924864991072679826000000000000001120403456107626967211065493031049812226000011204034561089790202110716015110656165120000112040345610965737291082527633105967831700001120403456108842386100000000000000000000000011204034561081296088000000000000000000009775112040345610626774851102428556105833081100001090519040107781979510842857510000000000000011204034560000000000000000000010331117899776112040345610945662991100615673000000000000001120403456108834536300000000001063310798000011204034561067408911105800815110498358540000))))
 (.node 4 (.node 2 (.node 1 (.leaf 11204034561068367369000000000000000000000000112040345610580960300000000000000000000097771120403456106556668100000000000000000000000011204034561102297541103590584610405024060000112040345610987773331016887194000000000000001120403456111793717410672322641043431725000011204034561119286101107385381210873691040000112040345611137515771069491316107249217600001120403456109101239810552399101065776386000011204034561082741137111104132410682924690000112040345610780816661110129403107427256500001120403456111238195510820465461053577744000011204034561087799824000000000000000000000000112040345610787604640000000000102521538900001120403456108336964110964102551057632917000011204034560000000000000000000000000000009778)
 (.leaf 11204034561089925590109960065210487244470000112040345610713711700000000000106218098700001120403456107400763410643247731048911749000011204034561065749964000000000000000000000000112040345610606644200000000000000000000097791120403456106631448300000000000000000000000011204034561094188603000000000000000000000000112040345611167749590000000000000000000000001120403456111530153510513173971050807093000011204034561116947533107669796910777020620000112040345611186717861056672684106642487000001120403456108496017010546493520000000000000011204034561084379061111296789910758013170000112040345610748215641112923203105775561900001120403456111648646310640781481064673643000011204034561086595424102503421100000000000000))
 (.node 1 (.leaf 11204034561067150962000000000010472093890000112040345610918496181102939528104586346100001120403456000000000000000000000000000000978011204034561100683516105786554410559974780000112040345610695259111084476935103203268200001120403456106425741200000000000000000000000011204034561058697191000000000000000000009781112040345610705436170000000000000000000000001120403456109664157410249536800000000000000011204034561108133653101624294900000000000000112040345611190586371069726059000000000097821120403456111488793810736948481079767334978311204034561118043600000000000000000000000000112040345611099906061073618511102733082700001120403456108712638511157764181059180302000011204034561083424339111161979710513532290000)
 (.leaf 11204034561110622907107867055110620739740000112040345610896697191038630466000000000000001120403456107397871400000000000000000000000011204034561070941942109826749210545490640000112040345610844789590000000000106291012397841120403456110723817710478445131084689778000011204034561066525071106247424600000000000000112040345610621964650000000000000000000000001120403456104239594500000000000000000000978511204034561030626526000000000010679012540000112040345610937597041036845371104317130000001120403456110144365710372346021034615390000011204034561120334620105738700800000000000000112040345611167486651071554075107678139197861120403456111663592600000000000000000000000011204034561089641283110829101410525292680000)))
 (.node 2 (.node 1 (.leaf 11204034561085827652110974651610374943380000112040345611098346641076666932105476867700001120403456108986842010304834501031813557000011204034561078471887000000000010446067110000112040345611059478401063423836107500091697871120403456105132075300000000001074038008000011204034561104321743109929142710753409520000112040345610724773420000000000103518454500001120403456108786304710346307780000000000000011204034561061452832000000000000000000009788112040345610690150360000000000105237437100001120403456110926804610517569601058676062000011204034561116714200099478153509945124090000112040345611201440451071837610104563188300001120403456110308139010676055571079715224000011196170241116094274104910616010487587100000)
 (.leaf 11204034561093667699111033104510427042710000112040345610944046641107170007106645965000001120403456110190640410984033881051308099000011204034561089457359104062360010499069920000112040345610763669090000000000000000000000001120403456111231718910657156041083181088978911204034561087355631110053294110767288860000112040345610846647730000000000105574668300001120403456107013504110758419121035707739000011204034561048813901000000000000000000009790112040345610746876810000000000102763362797911120403456106402384000000000000000000000000011204034561103007710103943577310528309540000112040345611171190501045723873105261356200001120403456111465005110706330061023914056000011204034561112593976108132470610843436259792))
 (.node 1 (.leaf 11083448321093187354105516609010422639260000112040345610930517021113442301105315541100001120403456109649256611062093551052960337000011204034561101207679109649529410429544160000112040345610905320111042999253103776530300001120403456104930587611094926560000000000000011204034561075753534000000000000000000000000112040345611099525071058140691106236669300001120403456108816936600000000001046238701000011204034561068267737106924133600000000000000112040345610919493691054786925105111645997931120403456108738886400000000001060368332979411204034561066428241000000000000000000000000112040345611154237521069311800108308092800001112014848108615655300000000001049969852000011204034561106450332106607631410484018640000)
 (.leaf 11204034561117081991107553027510744684589795112040345610912621111109762245103593577300001120403456107709076211077808031053407357000011204034561108863377108340675910770529780000112040345610921704591057733004000000000000001120403456106189360300000000000000000000000011204034561092019276111040053910650709530000112040345611027155361059789891107699352997961120403456110959097110545218451061121462000011204034561078988080104970007310357563140000112040345600000000000000000000106830326097971120403456108041093510989776401065144152979811204034561067949809000000000010186759159799112040345611173849361066811995107946419000001120403456109040695410162429490000000000980011204034561108793731106902658710715816359801))))))
 (.node 16 (.node 8 (.node 4 (.node 2 (.node 1 (.leaf 11204034561074825632110780809210498593620000112040345610923763061112852162104155899700001120403456109246486810572464651027342495000011204034561075040473000000000000000000000000112040345610763919571099722025103545284100001120403456109331928010555486111056305578000011204034561115364184105272332810538273680000112040345610828606710000000000105731584200001120403456000000000000000000001043153614980211204034561098962272104687814610844404829803112040345610670822170000000000102740661698041120403456112039265510277454091024417923000011204034561115867430107687119410853261830000112040345610844976430000000000000000000000001120403456107396080411077775261056547225000011204034561093533863111498737710736745770000)
 (.leaf 11204034561091659136106674404700000000000000112040345610743921840000000000000000000000001120403456110098424710741834841054990047000011204034561094322294105064966410369390949805112040345611118454031043012675105257171300001120403456107656200300000000001036069360000011204034560000000000000000000010296986279806112040345610983832561047153292107652080500001120403456106294437700000000000000000000980711200102401120010240000000000000000000000000112040345611189636291074319380107678359500001120403456106836259600000000000000000000000011204034561080908724110770659010496084190000112040345610890785041114092549109108349500001120403456108850173710582614871040667952000011204034561101154365107652516410493332300000))
 (.node 1 (.leaf 11204034561083697294000000000000000000000000112040345610917841751035852159102807572400001120403456112035365210422677671046827092000011204034561076334017109183856800000000009808112040345610347805650000000000000000000098091120403456111836674110631285571081512995981011204034561071103758000000000000000000000000112040345611203912711035887593000000000000001120403456111917380410764786071082446731981111204034561074133341000000000000000000000000112040345610902089191107221597106056416400001120403456108853676411137949111097085483000011204034561094280107104961618710509946940000112040345611106932531056652552105853260900001120403456108656250310215579710000000000000011204034561097219923104884108010522679340000)
 (.leaf 11204034561081393774109055815210587100260000112040345610810479070000000000103305553398121120403456108523449010372614461065696297981311204034561063970857000000000000000000000000112040345611203704921048626164000000000000001120403456111021500310767801781062291935981411204034561081938341106433483900000000009815112040345610863666501107350834107380968400001120403456109382471710599157201049664654000011204034561093409659111166648510773059070000112040345611159755281076008426109241244800001120403456108378228500000000000000000000000011204034561083373359102983920500000000000000112040345610834895061099478126104734366200001120403456107970349400000000001050296800981611204034561103417603106055325510777829699817)))
 (.node 2 (.node 1 (.leaf 11204034561075347831000000000000000000000000111607808011134607221041589967103529935200001120403456111935268810757633581078765562981811204034561090464155106458482000000000009819112040345610914022871106542330107824525200001120403456110180040010527803701050950701000011204034561092392328110667376910658847190000112040345611039803021066083864107102695400001120403456108553195200000000000000000000000011204034561076381639000000000000000000000000112040345610829905241099625503104992662400001120403456107885341400000000000000000000982011204034561110583937106415700010815211369821112040345610654866540000000000000000000000001120403456109898672010475425231048110407982211204034561070501649000000000000000000000000)
 (.leaf 11204034561084788012110752993110651130440000112040345611036939751065208932106905662400001120403456109351077711153091331065464812000011204034561106205614106389024310826398570000112040345610826619800000000000000000000000001120403456109093764910250878980000000000000011204034561082995071105157241110574635030000112040345610826358830000000000105239740700001120403456112011379010531298751072267610000011204034561052458315000000000000000000000000112040345611013146061061279708107132843598231120403456107476799410415966780000000000000011204034561074080799110017490510657957670000112040345610939971731053629297107047195600001120403456108409939111162642151076740866000011204034561107133356110063585910638724289824))
 (.node 1 (.leaf 11204034561081241277000000000000000000000000112040345610910195091030241858000000000000001120403456108256394110947545531057340582000011204034561077544149000000000000000000000000112040345611179773051076371653108908793998251120403456107235168900000000000000000000000011204034561114644359107881064010806408289826112040345610798850830000000000106078174200001120403456109291009511042058931080349309000011204034561092121515104191209010561328800000112040345610807808521109048977104696717400001120403456110952750510574427591085968070982711204034561081684393000000000000000000000000112040345611132102471064313029108164743198281120403456107903593300000000001044742647000011204034561070064644110152845910632006919829)
 (.leaf 11204034561117442287107053318110904832820000112040345610753653220000000000000000000000001120403456111508455810847889921081780483983011204034561065379263000000000010679427920000112040345610915031111098144704107313357300001120403456109011490410312887571049792722000011204034561097876245111289088110818849010000112040345611041492761055142602106208916300001120403456108483642100000000001051916252000011204034561101222373106295239610814957089831112040345610742311820000000000000000000000001120403456108297565311080496581067072360000011204034561111828560106719703210892413759832112040345610508388770000000000000000000000001120403456111570964310839109141094292042983311204034561081706463000000000000000000000000))))
 (.node 4 (.node 2 (.node 1 (.leaf 11204034561083834978110744473410704535870000112040345610994702651057779981106539583300001120403456109003149411146479801091951671000011204034561116844076106619291600000000000000112040345610846795680000000000104694716300001120403456109586346510568773661063780558983411204034561065643042000000000000000000000000112040345610848907771108697966106922050400001120403456110966509010759811631085752163983511204034561064918753000000000000000000000000112040345611076702151075382636106606475598361120403456107388193910591037031041627549000011204034561077442928110748644110775622610000112040345610976352181067234781107160996900001120403456109454997911154715841074680272000011204034561106280818105049866910437152320000)
 (.leaf 11204034561077584935000000000000000000000000112040345610903726081051344241106975327200001120403456107528573500000000001041337850000011204034561075826292110934934210714436829837112040345610944698891057795080108608384498381120403456105857718400000000000000000000000011204034561111320016107059357910816224429839110048051200000000000000000000000000000000001120403456109418659011065704321063632938000011204034561095096087105745953610777332730000111712665610835007201110388244107979682100001120403456110389946910380667521031887755000011204034561085517179000000000000000000000000112040345610862247331099318323106852133600001120403456107838228910226317130000000000984011204034561077094956110754872710689522420000))
 (.node 1 (.leaf 11204034561093993485106599242810824168080000112040345610729702730000000000000000000000001120403456110805061810730724131082450187984111204034561089758879110696191810744537340000112040345610907143881053105848104187734900001120403456110785365510422342121075017274000011204034561088626914000000000010569776410000112040345611004086961065774324107056190598421120403456106653838400000000000000000000000011204034561071623189110532336010745496950000112040345610995625221049807448108844927798431120403456106169544700000000000000000000000011204034561113079190108026354710688912769844112040345610892795731107020900108045288700001120403456109859767610274769731053662785000011204034561108537268109595622110929133910000)
 (.leaf 11204034561088346042105011950410772122360000112040345610905902440000000000103437127798451120403456106573865600000000001031988243000011204034561078629925109091907210694285050000112040345611026827021063787902105301903198461120403456107087251700000000000000000000000011204034561116658716107887439410915527409847112040345610925219341106861674106624889200001120403456110133927210361205951075248639000011204034561100747869106482473400000000000000112040345610870463111087876419000000000000001120010240107901504600000000000000000000000011204034561068511233000000000000000000000000112040345610577516441098584372101724858800001120403456110157676610894079691033684323984811204034561065570749000000000000000000009849)))
 (.node 2 (.node 1 (.leaf 11204034561115970048107962769110860197859850112040345610864687811107017335108097921200001120403456110292555410679536841076954781000011204034561109824145106940994710698729279851112040345610980793121044515914104338598300001120403456106166699300000000000000000000000011204034561086005394111222039510733585409852112040345611162339271069155772108435656398531120403456000000000000000000000000000000985411204034561109160613105921611010556877500000112040345610876035441108312352107043696200001120403456110880921710592865751075954209000011204034561107322660108902167310357950370000112040345610867987831049663164000000000000001119617024105762645200000000000000000000000011204034561077083241110848825110619817500000)
 (.leaf 11204034561107508886105011950410711396179855112040345600000000000000000000000000000098561120403456111409493910698604151064835937000011204034561091265999111266090210675287280000112040345611004293531050760394106205809500001120403456108408762410460459960000000000000011204034561087027768105818934510635223130000111634022410707426870000000000104210112400001120403456107355560511053810841050730277985711204034561115495170106817430510838067919858112040345600000000000000000000000000000098591120403456111757653110556593411060733116000011204034561093944866110635641710738588830000112040345611018197091041965777108374446800001120403456110798289410879403821074677088000011204034561082777349102983920510503592090000))
 (.node 1 (.leaf 11204034561086935670000000000010676746160000112040345610776182291111477531105771692298601120403456000000000000000000000000000000986111204034561096791874107083936600000000000000112040345610888158361107368896107327021700001120403456110805489110684578401065137319000011204034561104422163109456234910495691510000112040345610904781331062626918000000000000001120403456109221959310785111671055370716986211204034561066906845111130068900000000009863112040345600000000000000000000000000000098641120403456110753645311114139880000000000000011204034561083422150110725310710854317860000112040345611088936600996070025107402891700001120403456110157369710736269001072803362000011204034561079438012105057920000000000000000)
 (.leaf 11204034561093468417104793846610626383170000112040345610422317961113016448107849975800001120403456000000000000000000000000000000986511204034561117539666110196262210184655610000112040345610849707481106904141108274918600001120403456109218940310812378841087423606000011204034561099162220109268193810588226820000112040345611014576441081471087000000000000001120403456109144802910492202451050046804000011193548801071023085111351344710822068069866112040345610337641340000000000000000000098671120403456110454939611166942100000000000000011204034561085397690110705303910788991520000112040345611091792361051928088106746608300001120403456110353856410947456401067804452000011204034561091174074107428918100000000000000)))))
 (.node 4 (.node 2 (.node 1 (.leaf 11204034561088304689103026870210516084669868111673344010676058931095483733108638908200001120403456107406071300000000000000000000986911204034561116397693110136399010426379430000112040345610846694431108540313108088218700001120403456110308079310637677691058861199000011204034561099110881106647141710407727530000112040345611171675581074901130000000000000001120403456108944124610449051451042820998987011075584001078723281110029454710822205250000112040345610709128250000000000000000000000001120403456110613464810916648191035038912000011204034561087166554111051984110859679040000112040345610968676640000000000106099877200001120403456110049489810938108351059134121000011204034561118642884102516842810421219790000)
 (.leaf 11204034561093692680000000000000000000009871112040345610714315930000000000000000000000001120403456000000000000000000000000000000000011204034561084198746110943854910929156150000112040345611080579041039932378106734103100001120403456109495345710770469361082445659000011204034561117861163105914061300000000000000112040345610823164621040321610104752159798721120403456106913390300000000000000000000000011204034561075532146110713996610849726440000112040345611021673791042811349108809084500001120403456109898737710609911401093516746000011204034561118956411105002555100000000000000111817523210772502120000000000107351166400001120403456106620678200000000000000000000000011204034561099979513104638825110655535760000))
 (.node 1 (.leaf 11204034561103533795110192204210645471060000112040345610959076241068332850106191908400001120403456111979765910580937151040495461000011204034561073809688000000000000000000000000112040345611002127711110618171108371404500001120403456110339031410548607451073865868000011204034561100273743105521977810827693640000112040345611201315950966609234000000000000001120403456106522453500000000000000000000000011204034561092332909110891339610846757960000112040345610995343911051347596107385702600001120403456109725688611050127201072397163000011204034561117289673107440704110528486510000112040345610727697690000000000000000000000001120403456107525137111027166001093190099000011204034561098431406101640401110808067160000)
 (.leaf 11167334401011207637109907395210867161370000112040345611165004361070159050106542866700001120403456105882993200000000000000000000000011204034561096894386102053791710843463250000112040345611054797621091407708105869412900001120403456108492905000000000000000000000000011204034561090055129103923444610786954020000112040345611155076651080862494106645149400001120403456106276541400000000000000000000000011204034561099239758105815746810653203310000112040345611088690141074933845107144649100001120403456107227445500000000001053024273000011204034561104329019105402188410740306240000112040345611001130051060937453107308251300001120403456106555027300000000000000000000000011204034561094752766000000000000000000000000)))
 (.node 1 (.leaf 11204034561107387594105748134610547768140000112040345610630670520000000000000000000000001120403456106537697300000000000000000000000011204034561100888388103365098910797274630000112040345610704199860000000000000000000000001120403456110223520510357447850000000000000011204034561100957295000000000010497109370000112040345610680559160000000000102209037600001120403456110108676600000000000000000000000011204034561099216702000000000010850101360000112040345610615822180000000000104981834700001120403456109348249400000000001061169266000011204034561100181637000000000010798340500000112040345600000000000000000000000000000000001120403456111630113700000000001042309166000011204034561100311931000000000010566165200000)
 (.leaf 11204034560000000000000000000010346204780000112040345610954924321045086339106006273700001120403456109727153100000000001075261204000010905190400000000000000000000000000000000000112040345611023905971047059340106532041600001120403456109816227310421402601054026911000011204034561107532616000000000010661821610000112040345611006993300000000000104268763200001120403456110549303710386707321078394607000011204034561100561149103406706410598517210000112040345610918186041016618759106057968500001120403456000000000000000000001064787982000000000000000000000000000000000000000000000000000000000000000000000000000000000000000000000000000000000000000000000000000000000000000000000000000000000000000000000000000000000000)))))))

/-- Records of rarer water bodies: local reservoirs in the last 10 digits, then regulated lakes and global lakes (10 digits each,
bits of the binary32 number, in percent), then the fractions of reservoirs, the newest year in the last 13 digits: year since 1900 (3 digits) and
bits of the fraction from this year on (10 digits). -/
def rareData : DTree :=
 (.node 8192 (.node 4096 (.node 2048 (.node 1024 (.node 512 (.node 256 (.node 128 (.node 64 (.node 32 (.node 16 (.node 8 (.node 4 (.node 2 (.node 1 (.leaf 0)
 (.leaf 108745640100000000000000000000))
 (.node 1 (.leaf 109156278200000000000000000000)
 (.leaf 103603547400000000000000000000)))
 (.node 2 (.node 1 (.leaf 105015755500000000000000000000)
 (.leaf 105664362600000000000000000000))
 (.node 1 (.leaf 98172008800000000000000000000)
 (.leaf 110005112000000000000000000000))))
 (.node 4 (.node 2 (.node 1 (.leaf 108425788800000000000000000000)
 (.leaf 109701140300000000000000000000))
 (.node 1 (.leaf 110554099200000000000000000000)
 (.leaf 110808510000000000000000000000)))
 (.node 2 (.node 1 (.leaf 111031416300000000000000000000)
 (.leaf 107854405000000000000000000000))
 (.node 1 (.leaf 110549532700000000000000000000)
 (.leaf 108390302900000000000000000000)))))
 (.node 8 (.node 4 (.node 2 (.node 1 (.leaf 106427828300000000000000000000)
 (.leaf 108682788500000000000000000000))
 (.node 1 (.leaf 105831381500000000000000000000)
 (.leaf 108482919400000000000000000000)))
 (.node 2 (.node 1 (.leaf 109119253000000000000000000000)
 (.leaf 108338041800000000000000000000))
 (.node 1 (.leaf 110730765900000000000000000000)
 (.leaf 108462790900000000000000000000))))
 (.node 4 (.node 2 (.node 1 (.leaf 109314194800000000000000000000)
 (.leaf 109182906800000000000000000000))
 (.node 1 (.leaf 110812256000000000000000000000)
 (.leaf 105172535200000000000000000000)))
 (.node 2 (.node 1 (.leaf 108612382900000000000000000000)
 (.leaf 110531345100000000000000000000))
 (.node 1 (.leaf 110786927700000000000000000000)
 (.leaf 110235809200000000000000000000))))))
 (.node 16 (.node 8 (.node 4 (.node 2 (.node 1 (.leaf 110059611800000000000000000000)
 (.leaf 107027254700000000000000000000))
 (.node 1 (.leaf 107398245100000000000000000000)
 (.leaf 110095693300000000000000000000)))
 (.node 2 (.node 1 (.leaf 108311592600000000000000000000)
 (.leaf 105329791400000000000000000000))
 (.node 1 (.leaf 108967355200000000000000000000)
 (.leaf 106662484500000000000000000000))))
 (.node 4 (.node 2 (.node 1 (.leaf 109591658500000000000000000000)
 (.leaf 108041932400000000000000000000))
 (.node 1 (.leaf 108686024400000000000000000000)
 (.leaf 106040642000000000000000000000)))
 (.node 2 (.node 1 (.leaf 110931951000000000000000000000)
 (.leaf 106821775800000000000000000000))
 (.node 1 (.leaf 105007893700000000000000000000)
 (.leaf 108417505000000000000000000000)))))
 (.node 8 (.node 4 (.node 2 (.node 1 (.leaf 108957559400000000000000000000)
 (.leaf 109085732100000000000000000000))
 (.node 1 (.leaf 109415780800000000000000000000)
 (.leaf 109197837500000000000000000000)))
 (.node 2 (.node 1 (.leaf 104308105900000000000000000000)
 (.leaf 108499791000000000000000000000))
 (.node 1 (.leaf 107800952800000000000000000000)
 (.leaf 108310336400000000000000000000))))
 (.node 4 (.node 2 (.node 1 (.leaf 106912490200000000000000000000)
 (.leaf 106784832400000000000000000000))
 (.node 1 (.leaf 108636407900000000000000000000)
 (.leaf 109133839700000000000000000000)))
 (.node 2 (.node 1 (.leaf 108712815500000000000000000000)
 (.leaf 108484666300000000000000000000))
 (.node 1 (.leaf 106746681000000000000000000000)
 (.leaf 106999454900000000000000000000)))))))
 (.node 32 (.node 16 (.node 8 (.node 4 (.node 2 (.node 1 (.leaf 110019855000000000000000000000)
 (.leaf 110321834400000000000000000000))
 (.node 1 (.leaf 101849254600000000000000000000)
 (.leaf 110100181200000000000000000000)))
 (.node 2 (.node 1 (.leaf 106895184500000000000000000000)
 (.leaf 104934838900000000000000000000))
 (.node 1 (.leaf 109365554100000000000000000000)
 (.leaf 105853347900000000000000000000))))
 (.node 4 (.node 2 (.node 1 (.leaf 107748582800000000000000000000)
 (.leaf 105903280300000000000000000000))
 (.node 1 (.leaf 108075566500000000000000000000)
 (.leaf 108339497300000000000000000000)))
 (.node 2 (.node 1 (.leaf 108293649300000000000000000000)
 (.leaf 108247096800000000000000000000))
 (.node 1 (.leaf 110402527600000000000000000000)
 (.leaf 108070491400000000000000000000)))))
 (.node 8 (.node 4 (.node 2 (.node 1 (.leaf 102840374700000000000000000000)
 (.leaf 110121556400000000000000000000))
 (.node 1 (.leaf 110684966700000000000000000000)
 (.leaf 105194882400000000000000000000)))
 (.node 2 (.node 1 (.leaf 107467019100000000000000000000)
 (.leaf 108256842200000000000000000000))
 (.node 1 (.leaf 107243102000000000000000000000)
 (.leaf 109528240600000000000000000000))))
 (.node 4 (.node 2 (.node 1 (.leaf 108142692100000000000000000000)
 (.leaf 106518027600000000000000000000))
 (.node 1 (.leaf 109063679500000000000000000000)
 (.leaf 109265341600000000000000000000)))
 (.node 2 (.node 1 (.leaf 103571406300000000000000000000)
 (.leaf 107125359500000000000000000000))
 (.node 1 (.leaf 105286962500000000000000000000)
 (.leaf 108949435100000000000000000000))))))
 (.node 16 (.node 8 (.node 4 (.node 2 (.node 1 (.leaf 106853031700000000000000000000)
 (.leaf 102976390900000000000000000000))
 (.node 1 (.leaf 601059102284000000000000000000000000000000)
 (.leaf 601079137501000000000000000000000000000000)))
 (.node 2 (.node 1 (.leaf 109341405300000000000000000000)
 (.leaf 110206669300000000000000000000))
 (.node 1 (.leaf 103898332500000000000000000000)
 (.leaf 109523228400000000000000000000))))
 (.node 4 (.node 2 (.node 1 (.leaf 103629836600000000000000000000)
 (.leaf 105945389400000000000000000000))
 (.node 1 (.leaf 671067327055000000000000000000000000000000)
 (.leaf 671040799572000000000000000000000000000000)))
 (.node 2 (.node 1 (.leaf 651084966339000000000000000000000000000000)
 (.leaf 107529443000000000000000000000))
 (.node 1 (.leaf 108931661700000000000000000000)
 (.leaf 109649518900000000000000000000)))))
 (.node 8 (.node 4 (.node 2 (.node 1 (.leaf 108906818800000000000000000000)
 (.leaf 108836530700000000000000000000))
 (.node 1 (.leaf 108058256600000000000000000000)
 (.leaf 106036357100000000000000000000)))
 (.node 2 (.node 1 (.leaf 108303692600000000000000000000)
 (.leaf 721065987409000000000000000000000000000000))
 (.node 1 (.leaf 671091472508000000000000000000000000000000)
 (.leaf 671101504160000000000000000000000000000000))))
 (.node 4 (.node 2 (.node 1 (.leaf 671068263423000000000000000000000000000000)
 (.leaf 11083243716103591067810832437160000000000))
 (.node 1 (.leaf 102430994500000000000000000000)
 (.leaf 108950649300000000000000000000)))
 (.node 2 (.node 1 (.leaf 109521362000000000000000000000)
 (.leaf 701103296587000000000000000000000000000000))
 (.node 1 (.leaf 106218044300000000000000000000)
 (.leaf 108149562400000000000000000000))))))))
 (.node 64 (.node 32 (.node 16 (.node 8 (.node 4 (.node 2 (.node 1 (.leaf 105111442600000000000000000000)
 (.leaf 106402340400000000000000000000))
 (.node 1 (.leaf 108362289100000000000000000000)
 (.leaf 108661596700000000000000000000)))
 (.node 2 (.node 1 (.leaf 108247233100000000000000000000)
 (.leaf 108640593800000000000000000000))
 (.node 1 (.leaf 107716345300000000000000000000)
 (.leaf 106093346000000000000000000000))))
 (.node 4 (.node 2 (.node 1 (.leaf 108401728200000000000000000000)
 (.leaf 109158475000000000000000000000))
 (.node 1 (.leaf 107047798400000000000000000000)
 (.leaf 108411408600000000000000000000)))
 (.node 2 (.node 1 (.leaf 107151011900000000000000000000)
 (.leaf 721063492984000000000000000000000000000000))
 (.node 1 (.leaf 107655876100000000000000000000)
 (.leaf 108674850800000000000000000000)))))
 (.node 8 (.node 4 (.node 2 (.node 1 (.leaf 11087361281000000000010873612810000000000)
 (.leaf 11071521697108829532510715216970000000000))
 (.node 1 (.leaf 107804354400000000000000000000)
 (.leaf 891067510152000000000000000000000000000000)))
 (.node 2 (.node 1 (.leaf 107439420600000000000000000000)
 (.leaf 106046403300000000000000000000))
 (.node 1 (.leaf 109440453800000000000000000000)
 (.leaf 109956615400000000000000000000))))
 (.node 4 (.node 2 (.node 1 (.leaf 107183282800000000000000000000)
 (.leaf 108195641000000000000000000000))
 (.node 1 (.leaf 110270050500000000000000000000)
 (.leaf 103581896700000000000000000000)))
 (.node 2 (.node 1 (.leaf 110766026900000000000000000000)
 (.leaf 105152211300000000000000000000))
 (.node 1 (.leaf 108888974200000000000000000000)
 (.leaf 109990269400000000000000000000))))))
 (.node 16 (.node 8 (.node 4 (.node 2 (.node 1 (.leaf 110793900700000000000000000000)
 (.leaf 108343083400000000000000000000))
 (.node 1 (.leaf 108237103800000000000000000000)
 (.leaf 107764936300000000000000000000)))
 (.node 2 (.node 1 (.leaf 110093659000000000000000000000)
 (.leaf 107837543900000000000000000000))
 (.node 1 (.leaf 106152931900000000000000000000)
 (.leaf 105705570800000000000000000000))))
 (.node 4 (.node 2 (.node 1 (.leaf 108623478900000000000000000000)
 (.leaf 109173255700000000000000000000))
 (.node 1 (.leaf 108679298800000000000000000000)
 (.leaf 109373628100000000000000000000)))
 (.node 2 (.node 1 (.leaf 971082669343000000000000000000000000000000)
 (.leaf 741070078987000000000000000000000000000000))
 (.node 1 (.leaf 851057036123000000000000000000000000000000)
 (.leaf 108901913600000000000000000000)))))
 (.node 8 (.node 4 (.node 2 (.node 1 (.leaf 109541956000000000000000000000)
 (.leaf 106026814200000000000000000000))
 (.node 1 (.leaf 891084190812000000000000000000000000000000)
 (.leaf 891088849549000000000000000000000000000000)))
 (.node 2 (.node 1 (.leaf 891062861371000000000000000000000000000000)
 (.leaf 110273007500000000000000000000))
 (.node 1 (.leaf 109228520900000000000000000000)
 (.leaf 105390494700000000000000000000))))
 (.node 4 (.node 2 (.node 1 (.leaf 109279298200000000000000000000)
 (.leaf 103886346800000000000000000000))
 (.node 1 (.leaf 108423809100000000000000000000)
 (.leaf 105344109100000000000000000000)))
 (.node 2 (.node 1 (.leaf 108875615300000000000000000000)
 (.leaf 109163325700000000000000000000))
 (.node 1 (.leaf 109387228100000000000000000000)
 (.leaf 111356789400000000000000000000)))))))
 (.node 32 (.node 16 (.node 8 (.node 4 (.node 2 (.node 1 (.leaf 101732485200000000000000000000)
 (.leaf 105189017100000000000000000000))
 (.node 1 (.leaf 108932259400000000000000000000)
 (.leaf 109515081000000000000000000000)))
 (.node 2 (.node 1 (.leaf 109820510200000000000000000000)
 (.leaf 11081266626109784764310812666260000000000))
 (.node 1 (.leaf 11085291975107916178810852919750000000000)
 (.leaf 106031921200000000000000000000))))
 (.node 4 (.node 2 (.node 1 (.leaf 106599821600000000000000000000)
 (.leaf 108846211100000000000000000000))
 (.node 1 (.leaf 109437507300000000000000000000)
 (.leaf 111642834400000000000000000000)))
 (.node 2 (.node 1 (.leaf 108817629100000000000000000000)
 (.leaf 109942443900000000000000000000))
 (.node 1 (.leaf 106039992800000000000000000000)
 (.leaf 109345809400000000000000000000)))))
 (.node 8 (.node 4 (.node 2 (.node 1 (.leaf 105294264000000000000000000000)
 (.leaf 104901006000000000000000000000))
 (.node 1 (.leaf 108378827300000000000000000000)
 (.leaf 109379405700000000000000000000)))
 (.node 2 (.node 1 (.leaf 109408823700000000000000000000)
 (.leaf 109791171100000000000000000000))
 (.node 1 (.leaf 107745386700000000000000000000)
 (.leaf 109218041400000000000000000000))))
 (.node 4 (.node 2 (.node 1 (.leaf 104441659300000000000000000000)
 (.leaf 103491838000000000000000000000))
 (.node 1 (.leaf 103266477000000000000000000000)
 (.leaf 108555787000000000000000000000)))
 (.node 2 (.node 1 (.leaf 108903167700000000000000000000)
 (.leaf 109043005800000000000000000000))
 (.node 1 (.leaf 109041869100000000000000000000)
 (.leaf 107896436200000000000000000000))))))
 (.node 16 (.node 8 (.node 4 (.node 2 (.node 1 (.leaf 109230744900000000000000000000)
 (.leaf 108577782000000000000000000000))
 (.node 1 (.leaf 109188230400000000000000000000)
 (.leaf 108232204900000000000000000000)))
 (.node 2 (.node 1 (.leaf 106781795700000000000000000000)
 (.leaf 107598728700000000000000000000))
 (.node 1 (.leaf 109658704400000000000000000000)
 (.leaf 109575416100000000000000000000))))
 (.node 4 (.node 2 (.node 1 (.leaf 104959444400000000000000000000)
 (.leaf 108326518000000000000000000000))
 (.node 1 (.leaf 107643800600000000000000000000)
 (.leaf 106478119700000000000000000000)))
 (.node 2 (.node 1 (.leaf 111036061500000000000000000000)
 (.leaf 109129238600000000000000000000))
 (.node 1 (.leaf 11068288763000000000010682887630000000000)
 (.leaf 631076173101000000000000000000000000000000)))))
 (.node 8 (.node 4 (.node 2 (.node 1 (.leaf 107493174800000000000000000000)
 (.leaf 108145577800000000000000000000))
 (.node 1 (.leaf 106827329000000000000000000000)
 (.leaf 108645473800000000000000000000)))
 (.node 2 (.node 1 (.leaf 109905208900000000000000000000)
 (.leaf 107399075600000000000000000000))
 (.node 1 (.leaf 108951052000000000000000000000)
 (.leaf 110493318500000000000000000000))))
 (.node 4 (.node 2 (.node 1 (.leaf 108154486500000000000000000000)
 (.leaf 109318735100000000000000000000))
 (.node 1 (.leaf 109963216200000000000000000000)
 (.leaf 1061083199973000000000000000000000000000000)))
 (.node 2 (.node 1 (.leaf 11056009411000000000010560094110000000000)
 (.leaf 11074618338000000000010746183380000000000))
 (.node 1 (.leaf 107321954900000000000000000000)
 (.leaf 108394901900000000000000000000)))))))))
 (.node 128 (.node 64 (.node 32 (.node 16 (.node 8 (.node 4 (.node 2 (.node 1 (.leaf 102836227300000000000000000000)
 (.leaf 102368934900000000000000000000))
 (.node 1 (.leaf 104762010100000000000000000000)
 (.leaf 106467090300000000000000000000)))
 (.node 2 (.node 1 (.leaf 109118836700000000000000000000)
 (.leaf 105535694800000000000000000000))
 (.node 1 (.leaf 109201105900000000000000000000)
 (.leaf 109245837100000000000000000000))))
 (.node 4 (.node 2 (.node 1 (.leaf 104788826800000000000000000000)
 (.leaf 110267586300000000000000000000))
 (.node 1 (.leaf 109690707000000000000000000000)
 (.leaf 109922673000000000000000000000)))
 (.node 2 (.node 1 (.leaf 109025096100000000000000000000)
 (.leaf 109010791400000000000000000000))
 (.node 1 (.leaf 106867661500000000000000000000)
 (.leaf 104775613100000000000000000000)))))
 (.node 8 (.node 4 (.node 2 (.node 1 (.leaf 721084106825000000000000000000000000000000)
 (.leaf 108645314500000000000000000000))
 (.node 1 (.leaf 99167588700000000000000000000)
 (.leaf 108861086200000000000000000000)))
 (.node 2 (.node 1 (.leaf 108942524900000000000000000000)
 (.leaf 109008140600000000000000000000))
 (.node 1 (.leaf 104408473900000000000000000000)
 (.leaf 108272860300000000000000000000))))
 (.node 4 (.node 2 (.node 1 (.leaf 108915524100000000000000000000)
 (.leaf 106879950800000000000000000000))
 (.node 1 (.leaf 110382242900000000000000000000)
 (.leaf 109801803600000000000000000000)))
 (.node 2 (.node 1 (.leaf 109919448600000000000000000000)
 (.leaf 108567891800000000000000000000))
 (.node 1 (.leaf 109721493200000000000000000000)
 (.leaf 104157976700000000000000000000))))))
 (.node 16 (.node 8 (.node 4 (.node 2 (.node 1 (.leaf 109837685900000000000000000000)
 (.leaf 96568409800000000000000000000))
 (.node 1 (.leaf 104534423800000000000000000000)
 (.leaf 107290497600000000000000000000)))
 (.node 2 (.node 1 (.leaf 361083221788108463174700000000000000000000)
 (.leaf 691079784914000000000000000000000000000000))
 (.node 1 (.leaf 108804240800000000000000000000)
 (.leaf 107411411000000000000000000000))))
 (.node 4 (.node 2 (.node 1 (.leaf 11067096164000000000010670961640000000000)
 (.leaf 107384731100000000000000000000))
 (.node 1 (.leaf 109807937800000000000000000000)
 (.leaf 671058141606000000000000000000000000000000)))
 (.node 2 (.node 1 (.leaf 108751684100000000000000000000)
 (.leaf 107890442500000000000000000000))
 (.node 1 (.leaf 108600208900000000000000000000)
 (.leaf 109085101900000000000000000000)))))
 (.node 8 (.node 4 (.node 2 (.node 1 (.leaf 109641382000000000000000000000)
 (.leaf 107635252700000000000000000000))
 (.node 1 (.leaf 109495462100000000000000000000)
 (.leaf 110218177400000000000000000000)))
 (.node 2 (.node 1 (.leaf 108588248900000000000000000000)
 (.leaf 108484007800000000000000000000))
 (.node 1 (.leaf 105565095200000000000000000000)
 (.leaf 106240826100000000000000000000))))
 (.node 4 (.node 2 (.node 1 (.leaf 107774876800000000000000000000)
 (.leaf 109445203900000000000000000000))
 (.node 1 (.leaf 104539718700000000000000000000)
 (.leaf 11063923923000000000010639239230000000000)))
 (.node 2 (.node 1 (.leaf 11068912960000000000010689129600000000000)
 (.leaf 109360279700000000000000000000))
 (.node 1 (.leaf 108436865900000000000000000000)
 (.leaf 109874050500000000000000000000)))))))
 (.node 32 (.node 16 (.node 8 (.node 4 (.node 2 (.node 1 (.leaf 108600896800000000000000000000)
 (.leaf 108014216400000000000000000000))
 (.node 1 (.leaf 109836794600000000000000000000)
 (.leaf 109503515200000000000000000000)))
 (.node 2 (.node 1 (.leaf 106973903200000000000000000000)
 (.leaf 109412257600000000000000000000))
 (.node 1 (.leaf 102569136700000000000000000000)
 (.leaf 106728175700000000000000000000))))
 (.node 4 (.node 2 (.node 1 (.leaf 109985619000000000000000000000)
 (.leaf 111060073800000000000000000000))
 (.node 1 (.leaf 108467643700000000000000000000)
 (.leaf 109522379100000000000000000000)))
 (.node 2 (.node 1 (.leaf 109899410300000000000000000000)
 (.leaf 102838707700000000000000000000))
 (.node 1 (.leaf 107442851500000000000000000000)
 (.leaf 109054438400000000000000000000)))))
 (.node 8 (.node 4 (.node 2 (.node 1 (.leaf 106735146600000000000000000000)
 (.leaf 11063311110000000000010633111100000000000))
 (.node 1 (.leaf 11058088560000000000010580885600000000000)
 (.leaf 621058836711000000000000000000000000000000)))
 (.node 2 (.node 1 (.leaf 108331077200000000000000000000)
 (.leaf 109726998200000000000000000000))
 (.node 1 (.leaf 11082953076109156094710829530760000000000)
 (.leaf 106280562900000000000000000000))))
 (.node 4 (.node 2 (.node 1 (.leaf 11068004783105519253110680047830000000000)
 (.leaf 11107666935000000000011076669350000000000))
 (.node 1 (.leaf 11090116846000000000010901168460000000000)
 (.leaf 1121066894065000000000000000000000000000000)))
 (.node 2 (.node 1 (.leaf 110575983000000000000000000000)
 (.leaf 108725979300000000000000000000))
 (.node 1 (.leaf 109093066900000000000000000000)
 (.leaf 107461541400000000000000000000))))))
 (.node 16 (.node 8 (.node 4 (.node 2 (.node 1 (.leaf 110310520300000000000000000000)
 (.leaf 109153763700000000000000000000))
 (.node 1 (.leaf 110355530400000000000000000000)
 (.leaf 107490511400000000000000000000)))
 (.node 2 (.node 1 (.leaf 109405955700000000000000000000)
 (.leaf 108448092000000000000000000000))
 (.node 1 (.leaf 11095943065000000000010959430650000000000)
 (.leaf 106708496000000000000000000000))))
 (.node 4 (.node 2 (.node 1 (.leaf 108145296800000000000000000000)
 (.leaf 11101715408000000000011017154080000000000))
 (.node 1 (.leaf 11014752292000000000010147522920000000000)
 (.leaf 105951449300000000000000000000)))
 (.node 2 (.node 1 (.leaf 106949039400000000000000000000)
 (.leaf 11104298540000000000011042985400000000000))
 (.node 1 (.leaf 107536732700000000000000000000)
 (.leaf 108252184400000000000000000000)))))
 (.node 8 (.node 4 (.node 2 (.node 1 (.leaf 105980286000000000000000000000)
 (.leaf 111208740900000000000000000000))
 (.node 1 (.leaf 109298791200000000000000000000)
 (.leaf 107746473000000000000000000000)))
 (.node 2 (.node 1 (.leaf 106727479400000000000000000000)
 (.leaf 108288580500000000000000000000))
 (.node 1 (.leaf 103484626500000000000000000000)
 (.leaf 105795724900000000000000000000))))
 (.node 4 (.node 2 (.node 1 (.leaf 103528296900000000000000000000)
 (.leaf 741058327944000000000000000000000000000000))
 (.node 1 (.leaf 108336603200000000000000000000)
 (.leaf 109230909600000000000000000000)))
 (.node 2 (.node 1 (.leaf 11092288869000000000010922888690000000000)
 (.leaf 109144408300000000000000000000))
 (.node 1 (.leaf 105190305600000000000000000000)
 (.leaf 105668254900000000000000000000))))))))
 (.node 64 (.node 32 (.node 16 (.node 8 (.node 4 (.node 2 (.node 1 (.leaf 108933968600000000000000000000)
 (.leaf 103784583000000000000000000000))
 (.node 1 (.leaf 106490189200000000000000000000)
 (.leaf 108387362700000000000000000000)))
 (.node 2 (.node 1 (.leaf 106911374500000000000000000000)
 (.leaf 108686741600000000000000000000))
 (.node 1 (.leaf 108630984600000000000000000000)
 (.leaf 105201824900000000000000000000))))
 (.node 4 (.node 2 (.node 1 (.leaf 106256407100000000000000000000)
 (.leaf 102587301800000000000000000000))
 (.node 1 (.leaf 109256813600000000000000000000)
 (.leaf 109235520100000000000000000000)))
 (.node 2 (.node 1 (.leaf 106674253700000000000000000000)
 (.leaf 108348930300000000000000000000))
 (.node 1 (.leaf 107902002000000000000000000000)
 (.leaf 11050025069000000000010500250690000000000)))))
 (.node 8 (.node 4 (.node 2 (.node 1 (.leaf 11030714378000000000010307143780000000000)
 (.leaf 109942082100000000000000000000))
 (.node 1 (.leaf 11073939720000000000010739397200000000000)
 (.leaf 108007526500000000000000000000)))
 (.node 2 (.node 1 (.leaf 109306708000000000000000000000)
 (.leaf 103495981300000000000000000000))
 (.node 1 (.leaf 107350283300000000000000000000)
 (.leaf 104906901500000000000000000000))))
 (.node 4 (.node 2 (.node 1 (.leaf 109996435000000000000000000000)
 (.leaf 110624799500000000000000000000))
 (.node 1 (.leaf 108402883700000000000000000000)
 (.leaf 108219162700000000000000000000)))
 (.node 2 (.node 1 (.leaf 109398007500000000000000000000)
 (.leaf 110040962800000000000000000000))
 (.node 1 (.leaf 103409500800000000000000000000)
 (.leaf 109527947000000000000000000000))))))
 (.node 16 (.node 8 (.node 4 (.node 2 (.node 1 (.leaf 108818920900000000000000000000)
 (.leaf 104744300100000000000000000000))
 (.node 1 (.leaf 1021908172)
 (.leaf 551066099467000000000000000000000000000000)))
 (.node 2 (.node 1 (.leaf 11081233740000000000010812337400000000000)
 (.leaf 108348680700000000000000000000))
 (.node 1 (.leaf 103485888100000000000000000000)
 (.leaf 11056165453000000000010561654530000000000))))
 (.node 4 (.node 2 (.node 1 (.leaf 11098931508000000000010989315080000000000)
 (.leaf 11049124592000000000010491245920000000000))
 (.node 1 (.leaf 110374247500000000000000000000)
 (.leaf 106472499300000000000000000000)))
 (.node 2 (.node 1 (.leaf 106382352000000000000000000000)
 (.leaf 102151770600000000000000000000))
 (.node 1 (.leaf 109840160500000000000000000000)
 (.leaf 105604320300000000000000000000)))))
 (.node 8 (.node 4 (.node 2 (.node 1 (.leaf 106470202500000000000000000000)
 (.leaf 108807378200000000000000000000))
 (.node 1 (.leaf 108480658700000000000000000000)
 (.leaf 109386389300000000000000000000)))
 (.node 2 (.node 1 (.leaf 109488635900000000000000000000)
 (.leaf 108145049300000000000000000000))
 (.node 1 (.leaf 110215681800000000000000000000)
 (.leaf 107157613700000000000000000000))))
 (.node 4 (.node 2 (.node 1 (.leaf 109644936600000000000000000000)
 (.leaf 108367469100000000000000000000))
 (.node 1 (.leaf 107669968900000000000000000000)
 (.leaf 109030372500000000000000000000)))
 (.node 2 (.node 1 (.leaf 10975648404000000000009756484040000000000)
 (.leaf 10982031586105887585209820315860000000000))
 (.node 1 (.leaf 108439659300000000000000000000)
 (.leaf 108424138300000000000000000000)))))))
 (.node 32 (.node 16 (.node 8 (.node 4 (.node 2 (.node 1 (.leaf 109799580600000000000000000000)
 (.leaf 110015534900000000000000000000))
 (.node 1 (.leaf 107057889900000000000000000000)
 (.leaf 103729728200000000000000000000)))
 (.node 2 (.node 1 (.leaf 108846871700000000000000000000)
 (.leaf 103194085300000000000000000000))
 (.node 1 (.leaf 109177166900000000000000000000)
 (.leaf 107661509000000000000000000000))))
 (.node 4 (.node 2 (.node 1 (.leaf 107959854000000000000000000000)
 (.leaf 100038416900000000000000000000))
 (.node 1 (.leaf 109705470900000000000000000000)
 (.leaf 108713492900000000000000000000)))
 (.node 2 (.node 1 (.leaf 109359451300000000000000000000)
 (.leaf 101249934800000000000000000000))
 (.node 1 (.leaf 1062081784)
 (.leaf 11055885018000000000010558850181066234254)))))
 (.node 8 (.node 4 (.node 2 (.node 1 (.leaf 11068504463000000000010685044631061313298)
 (.leaf 1030186705))
 (.node 1 (.leaf 109154431700000000000000000000)
 (.leaf 108690243800000000000000000000)))
 (.node 2 (.node 1 (.leaf 108854641700000000000000000000)
 (.leaf 109592151300000000000000000000))
 (.node 1 (.leaf 107041624400000000000000000000)
 (.leaf 11090686397000000000010906863970000000000))))
 (.node 4 (.node 2 (.node 1 (.leaf 109320916200000000000000000000)
 (.leaf 107895215600000000000000000000))
 (.node 1 (.leaf 110169119800000000000000000000)
 (.leaf 103546416300000000000000000000)))
 (.node 2 (.node 1 (.leaf 108555088700000000000000000000)
 (.leaf 109140048300000000000000000000))
 (.node 1 (.leaf 107916052900000000000000000000)
 (.leaf 105902050500000000000000000000))))))
 (.node 16 (.node 8 (.node 4 (.node 2 (.node 1 (.leaf 108525707600000000000000000000)
 (.leaf 107723333000000000000000000000))
 (.node 1 (.leaf 108133733100000000000000000000)
 (.leaf 108427095300000000000000000000)))
 (.node 2 (.node 1 (.leaf 107985611300000000000000000000)
 (.leaf 7610675840600871084709335000000000000000000001056298482))
 (.node 1 (.leaf 1064692666)
 (.leaf 101585629500000000000000000000))))
 (.node 4 (.node 2 (.node 1 (.leaf 105813045700000000000000000000)
 (.leaf 106197010700000000000000000000))
 (.node 1 (.leaf 11058404073000000000010584040730000000000)
 (.leaf 1131040117684000000000000000000000000000000)))
 (.node 2 (.node 1 (.leaf 103222178500000000000000000000)
 (.leaf 110731809300000000000000000000))
 (.node 1 (.leaf 105012648300000000000000000000)
 (.leaf 108914980900000000000000000000)))))
 (.node 8 (.node 4 (.node 2 (.node 1 (.leaf 107498795200000000000000000000)
 (.leaf 106497344700000000000000000000))
 (.node 1 (.leaf 109669966200000000000000000000)
 (.leaf 1041181476)))
 (.node 2 (.node 1 (.leaf 1064470270)
 (.leaf 1067121574))
 (.node 1 (.leaf 1047701286)
 (.leaf 1007158399))))
 (.node 4 (.node 2 (.node 1 (.leaf 105928743000000000000000000000)
 (.leaf 11032956825000000000010329568250000000000))
 (.node 1 (.leaf 11066625702108438109610666257020000000000)
 (.leaf 107202954100000000000000000000)))
 (.node 2 (.node 1 (.leaf 411093250279000000000000000000000000000000)
 (.leaf 1131087466452000000000000000000000000000000))
 (.node 1 (.leaf 105005806600000000000000000000)
 (.leaf 109758413500000000000000000000))))))))))
 (.node 256 (.node 128 (.node 64 (.node 32 (.node 16 (.node 8 (.node 4 (.node 2 (.node 1 (.leaf 105097655100000000000000000000)
 (.leaf 109220174200000000000000000000))
 (.node 1 (.leaf 110050137900000000000000000000)
 (.leaf 109582714100000000000000000000)))
 (.node 2 (.node 1 (.leaf 11083668550000000000010836685500000000000)
 (.leaf 11078727830108791894910787278300000000000))
 (.node 1 (.leaf 106286530600000000000000000000)
 (.leaf 108596813600000000000000000000))))
 (.node 4 (.node 2 (.node 1 (.leaf 108334501900000000000000000000)
 (.leaf 1067756204))
 (.node 1 (.leaf 1059444220)
 (.leaf 11091985996000000000010919859960000000000)))
 (.node 2 (.node 1 (.leaf 11038279941000000000010382799410000000000)
 (.leaf 108343358100000000000000000000))
 (.node 1 (.leaf 107998022200000000000000000000)
 (.leaf 108148123800000000000000000000)))))
 (.node 8 (.node 4 (.node 2 (.node 1 (.leaf 1131065711946000000000000000000000000000000)
 (.leaf 110832092400000000000000000000))
 (.node 1 (.leaf 110910544300000000000000000000)
 (.leaf 107477131600000000000000000000)))
 (.node 2 (.node 1 (.leaf 1040501903)
 (.leaf 109053826000000000000000000000))
 (.node 1 (.leaf 109522515400000000000000000000)
 (.leaf 11096568259000000000010965682590000000000))))
 (.node 4 (.node 2 (.node 1 (.leaf 11050286192000000000010502861920000000000)
 (.leaf 11094082206000000000010940822060000000000))
 (.node 1 (.leaf 106578179000000000000000000000)
 (.leaf 108121955500000000000000000000)))
 (.node 2 (.node 1 (.leaf 1049499335)
 (.leaf 1066428540))
 (.node 1 (.leaf 109696400800000000000000000000)
 (.leaf 107879252100000000000000000000))))))
 (.node 16 (.node 8 (.node 4 (.node 2 (.node 1 (.leaf 411048591230000000000000000000000000000000)
 (.leaf 551009170960000000000000000000000000000000))
 (.node 1 (.leaf 551036516244000000000000000000000000000000)
 (.leaf 631068178024000000000000000000000000000000)))
 (.node 2 (.node 1 (.leaf 771077708755000000000000000000000000000000)
 (.leaf 104343982300000000000000000000))
 (.node 1 (.leaf 108336989100000000000000000000)
 (.leaf 108880801600000000000000000000))))
 (.node 4 (.node 2 (.node 1 (.leaf 1049097900)
 (.leaf 11068905692000000000000000000000000000000))
 (.node 1 (.leaf 108639452900000000000000000000)
 (.leaf 107935627700000000000000000000)))
 (.node 2 (.node 1 (.leaf 11083090028000000000010830900280000000000)
 (.leaf 108297384400000000000000000000))
 (.node 1 (.leaf 107736792600000000000000000000)
 (.leaf 105786150100000000000000000000)))))
 (.node 8 (.node 4 (.node 2 (.node 1 (.leaf 106724568600000000000000000000)
 (.leaf 109823173600000000000000000000))
 (.node 1 (.leaf 106662207700000000000000000000)
 (.leaf 109074243900000000000000000000)))
 (.node 2 (.node 1 (.leaf 1076653531)
 (.leaf 104486145700000000000000000000))
 (.node 1 (.leaf 107628738900000000000000000000)
 (.leaf 108666363600000000000000000000))))
 (.node 4 (.node 2 (.node 1 (.leaf 107615623300000000000000000000)
 (.leaf 107866715300000000000000000000))
 (.node 1 (.leaf 108662454500000000000000000000)
 (.leaf 551072285093000000000000000000000000000000)))
 (.node 2 (.node 1 (.leaf 106027035700000000000000000000)
 (.leaf 771071934803000000000000000000000000000000))
 (.node 1 (.leaf 771075058226000000000000000000000000000000)
 (.leaf 1047238465)))))))
 (.node 32 (.node 16 (.node 8 (.node 4 (.node 2 (.node 1 (.leaf 671043235450000000000000000000000000000000)
 (.leaf 110015828500000000000000000000))
 (.node 1 (.leaf 107828685600000000000000000000)
 (.leaf 108959641900000000000000000000)))
 (.node 2 (.node 1 (.leaf 103602632000000000000000000000)
 (.leaf 108777292400000000000000000000))
 (.node 1 (.leaf 11093593837109798102110935938370000000000)
 (.leaf 11068901429108506650810689014290000000000))))
 (.node 4 (.node 2 (.node 1 (.leaf 107039258800000000000000000000)
 (.leaf 107817302200000000000000000000))
 (.node 1 (.leaf 109254754200000000000000000000)
 (.leaf 701066714158000000000000000000000000000000)))
 (.node 2 (.node 1 (.leaf 109018337000000000000000000000)
 (.leaf 107427051600000000000000000000))
 (.node 1 (.leaf 1074849885)
 (.leaf 1069154116)))))
 (.node 8 (.node 4 (.node 2 (.node 1 (.leaf 1037405629)
 (.leaf 106048693400000000000000000000))
 (.node 1 (.leaf 106712379900000000000000000000)
 (.leaf 106986695800000000000000000000)))
 (.node 2 (.node 1 (.leaf 107781747100000000000000000000)
 (.leaf 108216031600000000000000000000))
 (.node 1 (.leaf 109706383200000000000000000000)
 (.leaf 107754094100000000000000000000))))
 (.node 4 (.node 2 (.node 1 (.leaf 105706689900000000000000000000)
 (.leaf 106751823200000000000000000000))
 (.node 1 (.leaf 108859479800000000000000000000)
 (.leaf 11096410616000000000010964106160000000000)))
 (.node 2 (.node 1 (.leaf 109455742100000000000000000000)
 (.leaf 111037956800000000000000000000))
 (.node 1 (.leaf 109237602600000000000000000000)
 (.leaf 109295886700000000000000000000))))))
 (.node 16 (.node 8 (.node 4 (.node 2 (.node 1 (.leaf 108129601700000000000000000000)
 (.leaf 107792807500000000000000000000))
 (.node 1 (.leaf 107553459500000000000000000000)
 (.leaf 105006638700000000000000000000)))
 (.node 2 (.node 1 (.leaf 104571649100000000000000000000)
 (.leaf 104566528700000000000000000000))
 (.node 1 (.leaf 1075255775)
 (.leaf 1059718548))))
 (.node 4 (.node 2 (.node 1 (.leaf 1062828966)
 (.leaf 107008086800000000000000000000))
 (.node 1 (.leaf 231032093119000000000000000000000000000000)
 (.leaf 1008488608)))
 (.node 2 (.node 1 (.leaf 1072896342)
 (.leaf 109524298000000000000000000000))
 (.node 1 (.leaf 641068996238000000000000000000000000000000)
 (.leaf 110389546200000000000000000000)))))
 (.node 8 (.node 4 (.node 2 (.node 1 (.leaf 107416284800000000000000000000)
 (.leaf 1049997233))
 (.node 1 (.leaf 671067787701000000000000000000000000000000)
 (.leaf 671081914109000000000000000000000000000000)))
 (.node 2 (.node 1 (.leaf 108115961800000000000000000000)
 (.leaf 105575450100000000000000000000))
 (.node 1 (.leaf 104753379900000000000000000000)
 (.leaf 106552602100000000000000000000))))
 (.node 4 (.node 2 (.node 1 (.leaf 601059877142000000000000000000000000000000)
 (.leaf 106167855300000000000000000000))
 (.node 1 (.leaf 107995409200000000000000000000)
 (.leaf 105655027800000000000000000000)))
 (.node 2 (.node 1 (.leaf 108646587400000000000000000000)
 (.leaf 109378755600000000000000000000))
 (.node 1 (.leaf 107107198200000000000000000000)
 (.leaf 109099727500000000000000000000))))))))
 (.node 64 (.node 32 (.node 16 (.node 8 (.node 4 (.node 2 (.node 1 (.leaf 1040271000)
 (.leaf 107244293200000000000000000000))
 (.node 1 (.leaf 591020847548000000000000000000000000000000)
 (.leaf 109255298400000000000000000000)))
 (.node 2 (.node 1 (.leaf 641051248390000000000000000000000000000000)
 (.leaf 641079473063000000000000000000000000000000))
 (.node 1 (.leaf 641081155846000000000000000000000000000000)
 (.leaf 11099520226000000000010995202260000000000))))
 (.node 4 (.node 2 (.node 1 (.leaf 1042985274)
 (.leaf 108161952400000000000000000000))
 (.node 1 (.leaf 1033426509)
 (.leaf 108973636200000000000000000000)))
 (.node 2 (.node 1 (.leaf 107313104900000000000000000000)
 (.leaf 107191738600000000000000000000))
 (.node 1 (.leaf 109461310000000000000000000000)
 (.leaf 109591941600000000000000000000)))))
 (.node 8 (.node 4 (.node 2 (.node 1 (.leaf 109601148100000000000000000000)
 (.leaf 107463449800000000000000000000))
 (.node 1 (.leaf 109074603600000000000000000000)
 (.leaf 109721629500000000000000000000)))
 (.node 2 (.node 1 (.leaf 107040173200000000000000000000)
 (.leaf 107702017600000000000000000000))
 (.node 1 (.leaf 109150620100000000000000000000)
 (.leaf 106541873100000000000000000000))))
 (.node 4 (.node 2 (.node 1 (.leaf 107933232800000000000000000000)
 (.leaf 107347968000000000000000000000))
 (.node 1 (.leaf 1009156916)
 (.leaf 1060664663)))
 (.node 2 (.node 1 (.leaf 1042132759)
 (.leaf 1045443704))
 (.node 1 (.leaf 1050672443)
 (.leaf 1046939971))))))
 (.node 16 (.node 8 (.node 4 (.node 2 (.node 1 (.leaf 106701458000000000000000000000)
 (.leaf 105813203400000000000000000000))
 (.node 1 (.leaf 721068393307000000000000000000000000000000)
 (.leaf 641006952876000000000000000000000000000000)))
 (.node 2 (.node 1 (.leaf 11031668900000000000010316689000000000000)
 (.leaf 107076328100000000000000000000))
 (.node 1 (.leaf 109457126200000000000000000000)
 (.leaf 110763921900000000000000000000))))
 (.node 4 (.node 2 (.node 1 (.leaf 109398385000000000000000000000)
 (.leaf 108905833200000000000000000000))
 (.node 1 (.leaf 106950733900000000000000000000)
 (.leaf 11092796475000000000010927964750000000000)))
 (.node 2 (.node 1 (.leaf 108589272300000000000000000000)
 (.leaf 109518321100000000000000000000))
 (.node 1 (.leaf 105959181900000000000000000000)
 (.leaf 107061841000000000000000000000)))))
 (.node 8 (.node 4 (.node 2 (.node 1 (.leaf 821073586647000000000000000000000000000000)
 (.leaf 821095183565000000000000000000000000000000))
 (.node 1 (.leaf 811093646499000000000000000000000000000000)
 (.leaf 811076194370000000000000000000000000000000)))
 (.node 2 (.node 1 (.leaf 107561693000000000000000000000)
 (.leaf 109459475000000000000000000000))
 (.node 1 (.leaf 711083586170000000000000000000000000000000)
 (.leaf 107110679400000000000000000000))))
 (.node 4 (.node 2 (.node 1 (.leaf 108230363600000000000000000000)
 (.leaf 1043746953))
 (.node 1 (.leaf 1050723611)
 (.leaf 741028774258000000000000000000000000000000)))
 (.node 2 (.node 1 (.leaf 741060513001000000000000000000000000000000)
 (.leaf 551076396725000000000000000000000000000000))
 (.node 1 (.leaf 721028751585000000000000000000000000000000)
 (.leaf 641050214851000000000000000000000000000000)))))))
 (.node 32 (.node 16 (.node 8 (.node 4 (.node 2 (.node 1 (.leaf 11108704682000000000011087046820000000000)
 (.leaf 1058061575))
 (.node 1 (.leaf 107304607300000000000000000000)
 (.leaf 106086913600000000000000000000)))
 (.node 2 (.node 1 (.leaf 102720730300000000000000000000)
 (.leaf 108744155300000000000000000000))
 (.node 1 (.leaf 108700415000000000000000000000)
 (.leaf 109793142400000000000000000000))))
 (.node 4 (.node 2 (.node 1 (.leaf 109835798400000000000000000000)
 (.leaf 109362408300000000000000000000))
 (.node 1 (.leaf 104423868700000000000000000000)
 (.leaf 11088994897108069438610889948970000000000)))
 (.node 2 (.node 1 (.leaf 107796863400000000000000000000)
 (.leaf 101768230000000000000000000000))
 (.node 1 (.leaf 105529933500000000000000000000)
 (.leaf 109684142900000000000000000000)))))
 (.node 8 (.node 4 (.node 2 (.node 1 (.leaf 108758539700000000000000000000)
 (.leaf 771091401982000000000000000000000000000000))
 (.node 1 (.leaf 811061635060000000000000000000000000000000)
 (.leaf 811057120992000000000000000000000000000000)))
 (.node 2 (.node 1 (.leaf 811102898555000000000000000000000000000000)
 (.leaf 711106845120000000000000000000000000000000))
 (.node 1 (.leaf 108588708100000000000000000000)
 (.leaf 103274887100000000001037542093))))
 (.node 4 (.node 2 (.node 1 (.leaf 104198986900000000001024511870)
 (.leaf 1001072615))
 (.node 1 (.leaf 1021691704)
 (.leaf 1016090440)))
 (.node 2 (.node 1 (.leaf 108566186800000000000000000000)
 (.leaf 107014755700000000000000000000))
 (.node 1 (.leaf 104925255800000000000000000000)
 (.leaf 571081924289000000000000000000000000000000))))))
 (.node 16 (.node 8 (.node 4 (.node 2 (.node 1 (.leaf 641078987718000000000000000000000000000000)
 (.leaf 641068609468000000000000000000000000000000))
 (.node 1 (.leaf 11100831670000000000011008316700000000000)
 (.leaf 11069549093000000000010695490930000000000)))
 (.node 2 (.node 1 (.leaf 781089534935000000000000000000000000000000)
 (.leaf 521069994232000000000000000000000000000000))
 (.node 1 (.leaf 521077180296000000000000000000000000000000)
 (.leaf 103435671900000000000000000000))))
 (.node 4 (.node 2 (.node 1 (.leaf 107595553600000000000000000000)
 (.leaf 108914253200000000000000000000))
 (.node 1 (.leaf 11032316105110011115110323161050000000000)
 (.leaf 109296851400000000000000000000)))
 (.node 2 (.node 1 (.leaf 111688181400000000000000000000)
 (.leaf 108920257400000000000000000000))
 (.node 1 (.leaf 107593599000000000000000000000)
 (.leaf 7110578252020741074442592000000000000000000000000000000)))))
 (.node 8 (.node 4 (.node 2 (.node 1 (.leaf 102993656700000000000000000000)
 (.leaf 107387100900000000000000000000))
 (.node 1 (.leaf 107236508600000000000000000000)
 (.leaf 1028229962)))
 (.node 2 (.node 1 (.leaf 104617665700000000000000000000)
 (.leaf 107796733400000000000000000000))
 (.node 1 (.leaf 641074260131000000000000000000000000000000)
 (.leaf 11108725580000000000011087255800000000000))))
 (.node 4 (.node 2 (.node 1 (.leaf 11115948356000000000011159483560000000000)
 (.leaf 781044880648000000000000000000000000000000))
 (.node 1 (.leaf 106960783400000000000000000000)
 (.leaf 1041266314)))
 (.node 2 (.node 1 (.leaf 521078648879107004311900000000000000000000)
 (.leaf 521063505048109201125800000000000000000000))
 (.node 1 (.leaf 521058119320000000000000000000000000000000)
 (.leaf 108644534300000000000000000000)))))))))
 (.node 128 (.node 64 (.node 32 (.node 16 (.node 8 (.node 4 (.node 2 (.node 1 (.leaf 106724853800000000000000000000)
 (.leaf 11102835645110121414811028356450000000000))
 (.node 1 (.leaf 103592850200000000000000000000)
 (.leaf 107108557100000000000000000000)))
 (.node 2 (.node 1 (.leaf 106920308400000000000000000000)
 (.leaf 771067176173103155740700000000000000000000))
 (.node 1 (.leaf 108885079800000000000000000000)
 (.leaf 109405420900000000000000000000))))
 (.node 4 (.node 2 (.node 1 (.leaf 740998434144000000000000000000000000000000)
 (.leaf 103828807700000000000000000000))
 (.node 1 (.leaf 1062161862)
 (.leaf 1049792419)))
 (.node 2 (.node 1 (.leaf 1050837692)
 (.leaf 1030364595))
 (.node 1 (.leaf 11080330589000000000010803305890000000000)
 (.leaf 1066678393)))))
 (.node 8 (.node 4 (.node 2 (.node 1 (.leaf 108581173100000000000000000000)
 (.leaf 108392205000000000000000000000))
 (.node 1 (.leaf 11089397653000000000010893976530000000000)
 (.leaf 11110091660000000000011100916600000000000)))
 (.node 2 (.node 1 (.leaf 1040945841)
 (.leaf 108420174700000000000000000000))
 (.node 1 (.leaf 106146137200000000000000000000)
 (.leaf 721069911002000000000000000000000000000000))))
 (.node 4 (.node 2 (.node 1 (.leaf 721069192865000000000000000000000000000000)
 (.leaf 111254411700000000000000000000))
 (.node 1 (.leaf 106742578900000000000000000000)
 (.leaf 106793791400000000000000000000)))
 (.node 2 (.node 1 (.leaf 110023252400000000000000000000)
 (.leaf 109291042200000000000000000000))
 (.node 1 (.leaf 801090718436108941759500000000000000000000)
 (.leaf 104090834300000000000000000000))))))
 (.node 16 (.node 8 (.node 4 (.node 2 (.node 1 (.leaf 105531440100000000000000000000)
 (.leaf 106220123000000000000000000000))
 (.node 1 (.leaf 108110542800000000000000000000)
 (.leaf 110176381200000000000000000000)))
 (.node 2 (.node 1 (.leaf 106321303000000000000000000000)
 (.leaf 1049370637))
 (.node 1 (.leaf 1038351146)
 (.leaf 1058694211))))
 (.node 4 (.node 2 (.node 1 (.leaf 108449935400000000000000000000)
 (.leaf 107313574700000000000000000000))
 (.node 1 (.leaf 103843128700000000000000000000)
 (.leaf 11026586285000000000010265862850000000000)))
 (.node 2 (.node 1 (.leaf 11100556447000000000011005564470000000000)
 (.leaf 107750436600000000000000000000))
 (.node 1 (.leaf 101436390100000000000000000000)
 (.leaf 107400782700000000000000000000)))))
 (.node 8 (.node 4 (.node 2 (.node 1 (.leaf 106601465800000000000000000000)
 (.leaf 1029286250))
 (.node 1 (.leaf 7210806103170831081421136000000000000000000000000000000)
 (.leaf 721050547768000000000000000000000000000000)))
 (.node 2 (.node 1 (.leaf 110780811800000000000000000000)
 (.leaf 104451557800000000000000000000))
 (.node 1 (.leaf 101436787400000000000000000000)
 (.leaf 108840183900000000000000000000))))
 (.node 4 (.node 2 (.node 1 (.leaf 109237068900000000000000000000)
 (.leaf 107461176500000000000000000000))
 (.node 1 (.leaf 105112093600000000000000000000)
 (.leaf 107276027300000000000000000000)))
 (.node 2 (.node 1 (.leaf 103765148200000000000000000000)
 (.leaf 1057647492))
 (.node 1 (.leaf 1038361675)
 (.leaf 1040943339)))))))
 (.node 32 (.node 16 (.node 8 (.node 4 (.node 2 (.node 1 (.leaf 771072202190000000000000000000000000000000)
 (.leaf 11073320815000000000010733208150000000000))
 (.node 1 (.leaf 11073107783000000000010731077830000000000)
 (.leaf 11114538129000000000011145381290000000000)))
 (.node 2 (.node 1 (.leaf 7210681578340831068201559000000000000000000000000000000)
 (.leaf 721074419796000000000000000000000000000000))
 (.node 1 (.leaf 721046477477000000000000000000000000000000)
 (.leaf 721024881361000000000000000000000000000000))))
 (.node 4 (.node 2 (.node 1 (.leaf 1059410227)
 (.leaf 110072168400000000000000000000))
 (.node 1 (.leaf 109264219700000000000000000000)
 (.leaf 107960864900000000000000000000)))
 (.node 2 (.node 1 (.leaf 108174996700000000000000000000)
 (.leaf 1051040852442105975791400000000000000000000))
 (.node 1 (.leaf 10510759950001101093695189103825130100000000000000000000)
 (.leaf 1101038244012106031803800000000000000000000)))))
 (.node 8 (.node 4 (.node 2 (.node 1 (.leaf 105304347100000000000000000000)
 (.leaf 1011065417111000000000000000000000000000000))
 (.node 1 (.leaf 107383309200000000000000000000)
 (.leaf 1049267196)))
 (.node 2 (.node 1 (.leaf 1030222954)
 (.leaf 1031751189))
 (.node 1 (.leaf 1032082920)
 (.leaf 1049057233))))
 (.node 4 (.node 2 (.node 1 (.leaf 1043241300)
 (.leaf 581032159997000000000000000000000000000000))
 (.node 1 (.leaf 106369866400000000000000000000)
 (.leaf 108304577600000000000000000000)))
 (.node 2 (.node 1 (.leaf 11096120656000000000010961206560000000000)
 (.leaf 11091304682000000000010913046820000000000))
 (.node 1 (.leaf 108070067800000000000000000000)
 (.leaf 109112270500000000000000000000))))))
 (.node 16 (.node 8 (.node 4 (.node 2 (.node 1 (.leaf 96323584200000000000000000000)
 (.leaf 108244106200000000000000000000))
 (.node 1 (.leaf 830982540074107223044800000000000000000000)
 (.leaf 681058883279000000000000000000000000000000)))
 (.node 2 (.node 1 (.leaf 109485605500000000000000000000)
 (.leaf 107875758200000000000000000000))
 (.node 1 (.leaf 108368549100000000000000000000)
 (.leaf 110072918200000000000000000000))))
 (.node 4 (.node 2 (.node 1 (.leaf 105139121700000000000000000000)
 (.leaf 108814474900000000000000000000))
 (.node 1 (.leaf 109839195800000000000000000000)
 (.leaf 1045793573)))
 (.node 2 (.node 1 (.leaf 1045279999)
 (.leaf 1057382051))
 (.node 1 (.leaf 1048441712)
 (.leaf 1050420231)))))
 (.node 8 (.node 4 (.node 2 (.node 1 (.leaf 1041220732)
 (.leaf 1052894964))
 (.node 1 (.leaf 1024254092)
 (.leaf 1038224754)))
 (.node 2 (.node 1 (.leaf 581075868757000000000000000000000000000000)
 (.leaf 110800338900000000000000000000))
 (.node 1 (.leaf 111134454600000000000000000000)
 (.leaf 109068044700000000000000000000))))
 (.node 4 (.node 2 (.node 1 (.leaf 551053840506000000000000000000000000000000)
 (.leaf 1041324909))
 (.node 1 (.leaf 671041424620000000000000000000000000000000)
 (.leaf 671054988893000000000000000000000000000000)))
 (.node 2 (.node 1 (.leaf 1070166539)
 (.leaf 1068276945))
 (.node 1 (.leaf 101402567200000000000000000000)
 (.leaf 291082343489000000000000000000000000000000))))))))
 (.node 64 (.node 32 (.node 16 (.node 8 (.node 4 (.node 2 (.node 1 (.leaf 291083552652000000000000000000000000000000)
 (.leaf 108006767300000000000000000000))
 (.node 1 (.leaf 106829896000000000000000000000)
 (.leaf 109282412500000000000000000000)))
 (.node 2 (.node 1 (.leaf 108837422000000000000000000000)
 (.leaf 1043032151))
 (.node 1 (.leaf 1041062038)
 (.leaf 1057189773))))
 (.node 4 (.node 2 (.node 1 (.leaf 1034714567)
 (.leaf 1024392732))
 (.node 1 (.leaf 1033472427)
 (.leaf 1024272153)))
 (.node 2 (.node 1 (.leaf 1043048811)
 (.leaf 1041295838))
 (.node 1 (.leaf 1043496409)
 (.leaf 1030187817)))))
 (.node 8 (.node 4 (.node 2 (.node 1 (.leaf 1039761000)
 (.leaf 1026973538))
 (.node 1 (.leaf 1053638538)
 (.leaf 1041921937)))
 (.node 2 (.node 1 (.leaf 1010296910)
 (.leaf 581087856974000000000000000000000000000000))
 (.node 1 (.leaf 108579273000000000000000000000)
 (.leaf 105681415000000000000000000000))))
 (.node 4 (.node 2 (.node 1 (.leaf 110082853400000000000000000000)
 (.leaf 106658508300000000000000000000))
 (.node 1 (.leaf 108977820000000000000000000000)
 (.leaf 1091011270432000000000000000000000000000000)))
 (.node 2 (.node 1 (.leaf 1022909827)
 (.leaf 1063275696))
 (.node 1 (.leaf 121081300934000000000000000000000000000000)
 (.leaf 104093787000000000000000000000))))))
 (.node 16 (.node 8 (.node 4 (.node 2 (.node 1 (.leaf 108639557800000000001038236172)
 (.leaf 1040207224))
 (.node 1 (.leaf 1041108037)
 (.leaf 1047518311)))
 (.node 2 (.node 1 (.leaf 1012115432)
 (.leaf 108223732400000000000000000000))
 (.node 1 (.leaf 106075827200000000000000000000)
 (.leaf 106962612100000000000000000000))))
 (.node 4 (.node 2 (.node 1 (.leaf 11105833126000000000011058331260000000000)
 (.leaf 11103829670000000000011038296700000000000))
 (.node 1 (.leaf 105127998400000000000000000000)
 (.leaf 107979693100000000000000000000)))
 (.node 2 (.node 1 (.leaf 109116499400000000000000000000)
 (.leaf 108688769500000000000000000000))
 (.node 1 (.leaf 107043386000000000000000000000)
 (.leaf 108963850900000000000000000000)))))
 (.node 8 (.node 4 (.node 2 (.node 1 (.leaf 841043610181000000000000000000000000000000)
 (.leaf 841074224722000000000000000000000000000000))
 (.node 1 (.leaf 1025427564)
 (.leaf 1041646619)))
 (.node 2 (.node 1 (.leaf 1032569391)
 (.leaf 1044570198))
 (.node 1 (.leaf 1057368748)
 (.leaf 1054238413))))
 (.node 4 (.node 2 (.node 1 (.leaf 1045899434)
 (.leaf 761079145162000000000000000000000000000000))
 (.node 1 (.leaf 761040923130000000000000000000000000000000)
 (.leaf 581081016536000000000000000000000000000000)))
 (.node 2 (.node 1 (.leaf 105852675100000000000000000000)
 (.leaf 1091072287569000000000000000000000000000000))
 (.node 1 (.leaf 581074957234000000000000000000000000000000)
 (.leaf 1065723071)))))))
 (.node 32 (.node 16 (.node 8 (.node 4 (.node 2 (.node 1 (.leaf 1210411694430411067081432000000000000000000000000000000)
 (.leaf 1040653496))
 (.node 1 (.leaf 108394195200000000000000000000)
 (.leaf 106767249800000000001025884112)))
 (.node 2 (.node 1 (.leaf 681060183702000000000000000000000000000000)
 (.leaf 1034831615))
 (.node 1 (.leaf 1028748115)
 (.leaf 1042059165))))
 (.node 4 (.node 2 (.node 1 (.leaf 108962101900000000000000000000)
 (.leaf 109706771200000000000000000000))
 (.node 1 (.leaf 108679812600000000000000000000)
 (.leaf 109069653200000000000000000000)))
 (.node 2 (.node 1 (.leaf 107841469800000000000000000000)
 (.leaf 108032361000000000000000000000))
 (.node 1 (.leaf 106359387300000000000000000000)
 (.leaf 108180071800000000001032614389)))))
 (.node 8 (.node 4 (.node 2 (.node 1 (.leaf 1040228546)
 (.leaf 561068382388000000000000000000000000000000))
 (.node 1 (.leaf 691084912461000000000000000000000000000000)
 (.leaf 551011280712000000000000000000000000000000)))
 (.node 2 (.node 1 (.leaf 841031174384000000000000000000000000000000)
 (.leaf 1034401619))
 (.node 1 (.leaf 1033041636)
 (.leaf 1032707835))))
 (.node 4 (.node 2 (.node 1 (.leaf 1025064853)
 (.leaf 1053541972))
 (.node 1 (.leaf 1068099197)
 (.leaf 1056880522)))
 (.node 2 (.node 1 (.leaf 1016857354)
 (.leaf 1054251930))
 (.node 1 (.leaf 601076978771000000000000000000000000000000)
 (.leaf 105766514100000000000000000000))))))
 (.node 16 (.node 8 (.node 4 (.node 2 (.node 1 (.leaf 1025469482)
 (.leaf 1042258313))
 (.node 1 (.leaf 1051122391)
 (.leaf 1050066895)))
 (.node 2 (.node 1 (.leaf 107748964400000000000000000000)
 (.leaf 108526374500000000000000000000))
 (.node 1 (.leaf 11090819648000000000010908196480000000000)
 (.leaf 106627738900000000000000000000))))
 (.node 4 (.node 2 (.node 1 (.leaf 107367354100000000000000000000)
 (.leaf 106792315000000000000000000000))
 (.node 1 (.leaf 106152960500000000000000000000)
 (.leaf 108856571100000000000000000000)))
 (.node 2 (.node 1 (.leaf 561083214915000000000000000000000000000000)
 (.leaf 561066093989000000000000000000001059058974))
 (.node 1 (.leaf 561071715897000000000000000000000000000000)
 (.leaf 241077789639000000000000000000001018193364)))))
 (.node 8 (.node 4 (.node 2 (.node 1 (.leaf 1058505200)
 (.leaf 1036126914))
 (.node 1 (.leaf 1036769066)
 (.leaf 985013079)))
 (.node 2 (.node 1 (.leaf 1045462044)
 (.leaf 1074067123))
 (.node 1 (.leaf 1009267740)
 (.leaf 1057712902))))
 (.node 4 (.node 2 (.node 1 (.leaf 1045776402)
 (.leaf 601035190168000000000000000000000000000000))
 (.node 1 (.leaf 581085140808000000000000000000000000000000)
 (.leaf 107537764500000000000000000000)))
 (.node 2 (.node 1 (.leaf 108092536700000000000000000000)
 (.leaf 1063927011))
 (.node 1 (.leaf 1067125257)
 (.leaf 491073632053000000000000000000001040227972)))))))))))
 (.node 512 (.node 256 (.node 128 (.node 64 (.node 32 (.node 16 (.node 8 (.node 4 (.node 2 (.node 1 (.leaf 1053465172)
 (.leaf 1044693939))
 (.node 1 (.leaf 1037621164)
 (.leaf 1050914176)))
 (.node 2 (.node 1 (.leaf 1061825454)
 (.leaf 1046658545))
 (.node 1 (.leaf 109396266800000000000000000000)
 (.leaf 108650175700000000000000000000))))
 (.node 4 (.node 2 (.node 1 (.leaf 107555539900000000000000000000)
 (.leaf 109582200300000000000000000000))
 (.node 1 (.leaf 104286188200000000000000000000)
 (.leaf 108657568100000000000000000000)))
 (.node 2 (.node 1 (.leaf 105266420500000000001012405197)
 (.leaf 107193508600000000000000000000))
 (.node 1 (.leaf 181090816095000000000000000000000000000000)
 (.leaf 181075291247000000000000000000000000000000)))))
 (.node 8 (.node 4 (.node 2 (.node 1 (.leaf 3010393563480531072677148000000000000000000001071290914)
 (.leaf 1032219422))
 (.node 1 (.leaf 241056128196000000000000000000000000000000)
 (.leaf 241089077972000000000000000000000000000000)))
 (.node 2 (.node 1 (.leaf 2410793828680281085382063000000000000000000001064505163)
 (.leaf 1023683842))
 (.node 1 (.leaf 1074270603)
 (.leaf 1040972663))))
 (.node 4 (.node 2 (.node 1 (.leaf 1029305291)
 (.leaf 521075052525000000000000000000000000000000))
 (.node 1 (.leaf 107981324700000000000000000000)
 (.leaf 107899695100000000000000000000)))
 (.node 2 (.node 1 (.leaf 106996208500000000000000000000)
 (.leaf 110213715700000000000000000000))
 (.node 1 (.leaf 104958132400000000000000000000)
 (.leaf 1061057165601000000000000000000000000000000))))))
 (.node 16 (.node 8 (.node 4 (.node 2 (.node 1 (.leaf 99967975200000000000000000000)
 (.leaf 991166829))
 (.node 1 (.leaf 1016183586)
 (.leaf 11071354298000000000010713542980000000000)))
 (.node 2 (.node 1 (.leaf 1057521111)
 (.leaf 1024194016))
 (.node 1 (.leaf 1043698368)
 (.leaf 108921450700000000000000000000))))
 (.node 4 (.node 2 (.node 1 (.leaf 1049964285)
 (.leaf 107578486900000000000000000000))
 (.node 1 (.leaf 591004285079000000000000000000000000000000)
 (.leaf 591072262554000000000000000000000000000000)))
 (.node 2 (.node 1 (.leaf 106907314400000000000000000000)
 (.leaf 107598170800000000000000000000))
 (.node 1 (.leaf 11071769772000000000010717697720000000000)
 (.leaf 11052977068000000000010529770680000000000)))))
 (.node 8 (.node 4 (.node 2 (.node 1 (.leaf 106310825700000000000000000000)
 (.leaf 106129596500000000000000000000))
 (.node 1 (.leaf 181092952510000000000000000000000000000000)
 (.leaf 181087237097000000000000000000000000000000)))
 (.node 2 (.node 1 (.leaf 11081852813000000000010818528130000000000)
 (.leaf 1023036184))
 (.node 1 (.leaf 1047486205)
 (.leaf 701058434514000000000000000000000000000000))))
 (.node 4 (.node 2 (.node 1 (.leaf 701090641823000000000000000000001063439697)
 (.leaf 66105840518706710751653140821087700122000000000000000000001066441085))
 (.node 1 (.leaf 661085853929000000000000000000001066367207)
 (.leaf 1044088360)))
 (.node 2 (.node 1 (.leaf 1040218956)
 (.leaf 1043721090))
 (.node 1 (.leaf 1040042437)
 (.leaf 1032252884)))))))
 (.node 32 (.node 16 (.node 8 (.node 4 (.node 2 (.node 1 (.leaf 521096602314000000000000000000000000000000)
 (.leaf 411083531228000000000000000000000000000000))
 (.node 1 (.leaf 551059428270000000000000000000001080555767)
 (.leaf 551062620683000000000000000000000000000000)))
 (.node 2 (.node 1 (.leaf 1033496480)
 (.leaf 1044672975))
 (.node 1 (.leaf 531015301534000000000000000000000000000000)
 (.leaf 11095934733000000000010959347331043254445))))
 (.node 4 (.node 2 (.node 1 (.leaf 11068075161000000000000000000000000000000)
 (.leaf 107181613500000000001027268846))
 (.node 1 (.leaf 108632091900000000001040934180)
 (.leaf 1076273953)))
 (.node 2 (.node 1 (.leaf 1005356181)
 (.leaf 110276305200000000000000000000))
 (.node 1 (.leaf 111321774800000000001051518162)
 (.leaf 111853898300000000000000000000)))))
 (.node 8 (.node 4 (.node 2 (.node 1 (.leaf 111806441100000000000000000000)
 (.leaf 591045540426000000000000000000000000000000))
 (.node 1 (.leaf 4810761738810571078891230000000000000000000000000000000)
 (.leaf 570997049752000000000000000000000000000000)))
 (.node 2 (.node 1 (.leaf 994530837)
 (.leaf 1055148443))
 (.node 1 (.leaf 661014824408000000000000000000000000000000)
 (.leaf 661067507679000000000000000000000000000000))))
 (.node 4 (.node 2 (.node 1 (.leaf 1024617218)
 (.leaf 1042705487))
 (.node 1 (.leaf 1032719449)
 (.leaf 1043381551)))
 (.node 2 (.node 1 (.leaf 1034397352)
 (.leaf 11066404194000000000010664041941019069818))
 (.node 1 (.leaf 109059176900000000000000000000)
 (.leaf 1033064797))))))
 (.node 16 (.node 8 (.node 4 (.node 2 (.node 1 (.leaf 1055977057)
 (.leaf 1025029730))
 (.node 1 (.leaf 541031848560000000000000000000000000000000)
 (.leaf 551068279228000000000000000000000000000000)))
 (.node 2 (.node 1 (.leaf 551097974310000000000000000000000000000000)
 (.leaf 106112438400000000000000000000))
 (.node 1 (.leaf 1041463424)
 (.leaf 261058925295000000000000000000000000000000))))
 (.node 4 (.node 2 (.node 1 (.leaf 1036785046)
 (.leaf 321061909443000000000000000000001067417141))
 (.node 1 (.leaf 631050739371000000000000000000000000000000)
 (.leaf 1020580507)))
 (.node 2 (.node 1 (.leaf 1036535960)
 (.leaf 1051967768))
 (.node 1 (.leaf 1060111838)
 (.leaf 1049431336)))))
 (.node 8 (.node 4 (.node 2 (.node 1 (.leaf 1077651847)
 (.leaf 108557160700000000001003352096))
 (.node 1 (.leaf 111132973500000000000000000000)
 (.leaf 561042993767000000000000000000000000000000)))
 (.node 2 (.node 1 (.leaf 1030631180)
 (.leaf 109081706600000000000000000000))
 (.node 1 (.leaf 106481096000000000000000000000)
 (.leaf 109140271700000000000000000000))))
 (.node 4 (.node 2 (.node 1 (.leaf 481056832736000000000000000000000000000000)
 (.leaf 571083842941000000000000000000000000000000))
 (.node 1 (.leaf 110452037310421057719236000000000010452037310000000000)
 (.leaf 11090393164000000000010903931640000000000)))
 (.node 2 (.node 1 (.leaf 1019642557)
 (.leaf 1054305792))
 (.node 1 (.leaf 1048203350)
 (.leaf 1041098938))))))))
 (.node 64 (.node 32 (.node 16 (.node 8 (.node 4 (.node 2 (.node 1 (.leaf 102543834000000000001061264587)
 (.leaf 103858443000000000001005395695))
 (.node 1 (.leaf 1034544219)
 (.leaf 107273804300000000001031444628)))
 (.node 2 (.node 1 (.leaf 105856822500000000000000000000)
 (.leaf 1041995008))
 (.node 1 (.leaf 105084713200000000000000000000)
 (.leaf 1054848072))))
 (.node 4 (.node 2 (.node 1 (.leaf 681058187535000000000000000000001056126289)
 (.leaf 1058872726))
 (.node 1 (.leaf 691065713739000000000000000000000000000000)
 (.leaf 1022352902)))
 (.node 2 (.node 1 (.leaf 1032896032)
 (.leaf 1067253332))
 (.node 1 (.leaf 1078107330)
 (.leaf 1061317079)))))
 (.node 8 (.node 4 (.node 2 (.node 1 (.leaf 1060231836)
 (.leaf 1083756868))
 (.node 1 (.leaf 110672216100000000000000000000)
 (.leaf 111690001900000000000000000000)))
 (.node 2 (.node 1 (.leaf 110062028700000000000000000000)
 (.leaf 110652460900000000001067665367))
 (.node 1 (.leaf 111934051500000000000000000000)
 (.leaf 111703837900000000000000000000))))
 (.node 4 (.node 2 (.node 1 (.leaf 111498546400000000000000000000)
 (.leaf 111275047600000000000000000000))
 (.node 1 (.leaf 109173057500000000000000000000)
 (.leaf 1023720137)))
 (.node 2 (.node 1 (.leaf 106973232100000000000000000000)
 (.leaf 105508314400000000000000000000))
 (.node 1 (.leaf 1055506797)
 (.leaf 1022415752))))))
 (.node 16 (.node 8 (.node 4 (.node 2 (.node 1 (.leaf 1033510879)
 (.leaf 681047679776000000000000000000000000000000))
 (.node 1 (.leaf 102879217300000000000000000000)
 (.leaf 109250250500000000000000000000)))
 (.node 2 (.node 1 (.leaf 106451499300000000001040101577)
 (.leaf 106954844300000000001044478669))
 (.node 1 (.leaf 1034939250)
 (.leaf 1040836833))))
 (.node 4 (.node 2 (.node 1 (.leaf 1051795294)
 (.leaf 1042365817))
 (.node 1 (.leaf 1043975366)
 (.leaf 1044136251)))
 (.node 2 (.node 1 (.leaf 106279412000000000000000000000)
 (.leaf 105312064600000000000000000000))
 (.node 1 (.leaf 108308423800000000000000000000)
 (.leaf 110795706900000000000000000000)))))
 (.node 8 (.node 4 (.node 2 (.node 1 (.leaf 110604278800000000000000000000)
 (.leaf 109068150600000000000000000000))
 (.node 1 (.leaf 1058361786)
 (.leaf 1035420729)))
 (.node 2 (.node 1 (.leaf 1041625345)
 (.leaf 1023326095))
 (.node 1 (.leaf 1066816239)
 (.leaf 110258316900000000001057578345))))
 (.node 4 (.node 2 (.node 1 (.leaf 104575413900000000000990228623)
 (.leaf 1067720979))
 (.node 1 (.leaf 1001117366)
 (.leaf 1079702244)))
 (.node 2 (.node 1 (.leaf 1068172613)
 (.leaf 1069270090))
 (.node 1 (.leaf 1007874501)
 (.leaf 1056868810)))))))
 (.node 32 (.node 16 (.node 8 (.node 4 (.node 2 (.node 1 (.leaf 108241793100000000001050241647)
 (.leaf 1059044124))
 (.node 1 (.leaf 108048718800000000001073248275)
 (.leaf 109136464300000000001051694495)))
 (.node 2 (.node 1 (.leaf 110594212500000000000000000000)
 (.leaf 108041764600000000000000000000))
 (.node 1 (.leaf 301039197420000000000000000000000000000000)
 (.leaf 1032657970))))
 (.node 4 (.node 2 (.node 1 (.leaf 1066021212)
 (.leaf 11074162731000000000010741627311085053493))
 (.node 1 (.leaf 681047542379000000000000000000000000000000)
 (.leaf 106110660100000000000000000000)))
 (.node 2 (.node 1 (.leaf 105796073800000000000000000000)
 (.leaf 109529163400000000000000000000))
 (.node 1 (.leaf 102234722500000000000000000000)
 (.leaf 1027730826)))))
 (.node 8 (.node 4 (.node 2 (.node 1 (.leaf 1038126073)
 (.leaf 1032925170))
 (.node 1 (.leaf 1042443627)
 (.leaf 11080619730000000000010806197301035405734)))
 (.node 2 (.node 1 (.leaf 107930733000000000001040463884)
 (.leaf 1030873452))
 (.node 1 (.leaf 1028432526)
 (.leaf 1034413287))))
 (.node 4 (.node 2 (.node 1 (.leaf 1024312869)
 (.leaf 1030108996))
 (.node 1 (.leaf 1019674021)
 (.leaf 1027409920)))
 (.node 2 (.node 1 (.leaf 1037269079)
 (.leaf 102553041300000000000000000000))
 (.node 1 (.leaf 109702220300000000000000000000)
 (.leaf 100367993400000000000000000000))))))
 (.node 16 (.node 8 (.node 4 (.node 2 (.node 1 (.leaf 107615753300000000000000000000)
 (.leaf 104903485700000000000000000000))
 (.node 1 (.leaf 103147212500000000000000000000)
 (.leaf 107709441500000000000000000000)))
 (.node 2 (.node 1 (.leaf 107579502000000000000000000000)
 (.leaf 981632581))
 (.node 1 (.leaf 1031869808)
 (.leaf 1051605065))))
 (.node 4 (.node 2 (.node 1 (.leaf 1044076869)
 (.leaf 1066985751))
 (.node 1 (.leaf 1067888761)
 (.leaf 1076869339)))
 (.node 2 (.node 1 (.leaf 1039102001)
 (.leaf 1063088041))
 (.node 1 (.leaf 111689779100000000000000000000)
 (.leaf 111008601900000000000000000000)))))
 (.node 8 (.node 4 (.node 2 (.node 1 (.leaf 111430533100000000000000000000)
 (.leaf 1061286563))
 (.node 1 (.leaf 1056168946)
 (.leaf 11077747221000000000010777472211069101163)))
 (.node 2 (.node 1 (.leaf 1084984769)
 (.leaf 681066438341000000000000000000001065799464))
 (.node 1 (.leaf 107041356000000000000000000000)
 (.leaf 108700159200000000000000000000))))
 (.node 4 (.node 2 (.node 1 (.leaf 110356196200000000000000000000)
 (.leaf 1057566535))
 (.node 1 (.leaf 1038580391)
 (.leaf 1039187738)))
 (.node 2 (.node 1 (.leaf 1035479929)
 (.leaf 11034898016000000000010348980160000000000))
 (.node 1 (.leaf 1035554367)
 (.leaf 1023123190)))))))))
 (.node 128 (.node 64 (.node 32 (.node 16 (.node 8 (.node 4 (.node 2 (.node 1 (.leaf 107856489600000000000000000000)
 (.leaf 108410387300000000000000000000))
 (.node 1 (.leaf 110716901100000000000000000000)
 (.leaf 731074060356000000000000000000000000000000)))
 (.node 2 (.node 1 (.leaf 110502451600000000000000000000)
 (.leaf 99785698900000000000000000000))
 (.node 1 (.leaf 110416484100000000000000000000)
 (.leaf 105928692700000000000000000000))))
 (.node 4 (.node 2 (.node 1 (.leaf 107474820500000000000000000000)
 (.leaf 1048046872))
 (.node 1 (.leaf 1042088534)
 (.leaf 1054110278)))
 (.node 2 (.node 1 (.leaf 1016530777)
 (.leaf 1022111234))
 (.node 1 (.leaf 1049690767)
 (.leaf 1040406856)))))
 (.node 8 (.node 4 (.node 2 (.node 1 (.leaf 1028358294)
 (.leaf 1038561254))
 (.node 1 (.leaf 1067697433)
 (.leaf 1058221882)))
 (.node 2 (.node 1 (.leaf 1051641359)
 (.leaf 1038914755))
 (.node 1 (.leaf 1042345413)
 (.leaf 1055968709))))
 (.node 4 (.node 2 (.node 1 (.leaf 111898255700000000001055034446)
 (.leaf 111034347000000000000000000000))
 (.node 1 (.leaf 106773331600000000000000000000)
 (.leaf 100251217500000000000000000000)))
 (.node 2 (.node 1 (.leaf 109879608000000000001055707617)
 (.leaf 111777390300000000000000000000))
 (.node 1 (.leaf 581073634575108108923800000000000000000000)
 (.leaf 1045229210))))))
 (.node 16 (.node 8 (.node 4 (.node 2 (.node 1 (.leaf 1068458642)
 (.leaf 1060976811))
 (.node 1 (.leaf 481077548475000000000000000000000000000000)
 (.leaf 1066505816)))
 (.node 2 (.node 1 (.leaf 11059572006000000000000000000001064856744)
 (.leaf 11080342286000000000000000000001079534790))
 (.node 1 (.leaf 106047576100000000000000000000)
 (.leaf 1037842392))))
 (.node 4 (.node 2 (.node 1 (.leaf 1049311085)
 (.leaf 1034489082))
 (.node 1 (.leaf 1032824650)
 (.leaf 1028805550)))
 (.node 2 (.node 1 (.leaf 1018788129)
 (.leaf 1034972175))
 (.node 1 (.leaf 1024422766)
 (.leaf 1046019934)))))
 (.node 8 (.node 4 (.node 2 (.node 1 (.leaf 1050666535)
 (.leaf 1032918112))
 (.node 1 (.leaf 1017903337)
 (.leaf 110000346200000000000000000000)))
 (.node 2 (.node 1 (.leaf 106857939100000000000000000000)
 (.leaf 751084235667000000000000000000000000000000))
 (.node 1 (.leaf 1055122142)
 (.leaf 731023989200000000000000000000000000000000))))
 (.node 4 (.node 2 (.node 1 (.leaf 110211739200000000000000000000)
 (.leaf 108417454700000000000000000000))
 (.node 1 (.leaf 5310531238990671053414433000000000000000000000000000000)
 (.leaf 1052326060)))
 (.node 2 (.node 1 (.leaf 471083537488000000000000000000000000000000)
 (.leaf 1059521795))
 (.node 1 (.leaf 1028409831)
 (.leaf 1051510455)))))))
 (.node 32 (.node 16 (.node 8 (.node 4 (.node 2 (.node 1 (.leaf 106666955600000000000000000000)
 (.leaf 111681427200000000000000000000))
 (.node 1 (.leaf 109399444000000000001040963345)
 (.leaf 108270876400000000001019678043)))
 (.node 2 (.node 1 (.leaf 1044657660)
 (.leaf 111599195300000000000000000000))
 (.node 1 (.leaf 111011779100000000000000000000)
 (.leaf 111439532500000000000000000000))))
 (.node 4 (.node 2 (.node 1 (.leaf 107191512100000000000000000000)
 (.leaf 1030821387))
 (.node 1 (.leaf 11001397590000000000010013975900000000000)
 (.leaf 1041109444)))
 (.node 2 (.node 1 (.leaf 1051499627)
 (.leaf 1036315021))
 (.node 1 (.leaf 1036250938)
 (.leaf 1065593851)))))
 (.node 8 (.node 4 (.node 2 (.node 1 (.leaf 1072123582)
 (.leaf 108274366000000000001013589547))
 (.node 1 (.leaf 105961181800000000000000000000)
 (.leaf 1060036203)))
 (.node 2 (.node 1 (.leaf 1047094971)
 (.leaf 1050767885))
 (.node 1 (.leaf 1053962107)
 (.leaf 601055223984000000000000000000000000000000))))
 (.node 4 (.node 2 (.node 1 (.leaf 1022134131)
 (.leaf 1031681963))
 (.node 1 (.leaf 1021807008)
 (.leaf 1044967727)))
 (.node 2 (.node 1 (.leaf 110164055200000000000000000000)
 (.leaf 1038182516))
 (.node 1 (.leaf 111354566400000000000000000000)
 (.leaf 110113975200000000000000000000))))))
 (.node 16 (.node 8 (.node 4 (.node 2 (.node 1 (.leaf 110394883400000000000000000000)
 (.leaf 1013862565))
 (.node 1 (.leaf 1026961520)
 (.leaf 1022330772)))
 (.node 2 (.node 1 (.leaf 1039587428)
 (.leaf 1063398189))
 (.node 1 (.leaf 1056717631)
 (.leaf 11045346736107202182410453467361027967356))))
 (.node 4 (.node 2 (.node 1 (.leaf 109262919400000000000000000000)
 (.leaf 1042501381))
 (.node 1 (.leaf 1056884198)
 (.leaf 1039940011)))
 (.node 2 (.node 1 (.leaf 5410586797080631064700694000000000000000000000000000000)
 (.leaf 1059690862))
 (.node 1 (.leaf 1060550490)
 (.leaf 1041616014)))))
 (.node 8 (.node 4 (.node 2 (.node 1 (.leaf 491065757055000000000000000000001050053966)
 (.leaf 109371698700000000000000000000))
 (.node 1 (.leaf 1070766705)
 (.leaf 1049986600)))
 (.node 2 (.node 1 (.leaf 109236044400000000001054629583)
 (.leaf 1038249514))
 (.node 1 (.leaf 106603135100000000001042287861)
 (.leaf 108131799500000000000000000000))))
 (.node 4 (.node 2 (.node 1 (.leaf 110236983600000000000000000000)
 (.leaf 107411004200000000000000000000))
 (.node 1 (.leaf 11106378151000000000011063781510000000000)
 (.leaf 1046921013)))
 (.node 2 (.node 1 (.leaf 1068659868)
 (.leaf 1060546916))
 (.node 1 (.leaf 1040429106)
 (.leaf 1027684761))))))))
 (.node 64 (.node 32 (.node 16 (.node 8 (.node 4 (.node 2 (.node 1 (.leaf 291086134164000000000000000000000000000000)
 (.leaf 1058981866))
 (.node 1 (.leaf 1023812682)
 (.leaf 1015138156)))
 (.node 2 (.node 1 (.leaf 1033669557)
 (.leaf 1010760106))
 (.node 1 (.leaf 7210642615270841070611832000000000000000000000000000000)
 (.leaf 104842654900000000000000000000))))
 (.node 4 (.node 2 (.node 1 (.leaf 103337309100000000000000000000)
 (.leaf 1047258140))
 (.node 1 (.leaf 1023908717)
 (.leaf 1043001294)))
 (.node 2 (.node 1 (.leaf 108726654600000000000000000000)
 (.leaf 1038661190))
 (.node 1 (.leaf 1051262329)
 (.leaf 1062331727)))))
 (.node 8 (.node 4 (.node 2 (.node 1 (.leaf 1022265424)
 (.leaf 1029452701))
 (.node 1 (.leaf 1037167359)
 (.leaf 1040550038)))
 (.node 2 (.node 1 (.leaf 1056292112)
 (.leaf 1056259063))
 (.node 1 (.leaf 1074171024)
 (.leaf 11056452179000000000010564521791070658144))))
 (.node 4 (.node 2 (.node 1 (.leaf 11092610781000000000010926107810000000000)
 (.leaf 111112004600000000000000000000))
 (.node 1 (.leaf 1009691882)
 (.leaf 109757606100000000000000000000)))
 (.node 2 (.node 1 (.leaf 110516460600000000000000000000)
 (.leaf 1041346384))
 (.node 1 (.leaf 1048613602)
 (.leaf 11080050314000000000010800503140000000000))))))
 (.node 16 (.node 8 (.node 4 (.node 2 (.node 1 (.leaf 1066117904)
 (.leaf 1060576891))
 (.node 1 (.leaf 11076162239000000000000000000001053078534)
 (.leaf 1038724992)))
 (.node 2 (.node 1 (.leaf 100729082000000000001075669602)
 (.leaf 109081420400000000001055580820))
 (.node 1 (.leaf 1085992011)
 (.leaf 1050759392))))
 (.node 4 (.node 2 (.node 1 (.leaf 105959703700000000000000000000)
 (.leaf 1049622071))
 (.node 1 (.leaf 1023735305)
 (.leaf 1040530114)))
 (.node 2 (.node 1 (.leaf 581051146537000000000000000000000000000000)
 (.leaf 5810518104380741063461315000000000000000000000000000000))
 (.node 1 (.leaf 741070967601000000000000000000001031074092)
 (.leaf 1048181658)))))
 (.node 8 (.node 4 (.node 2 (.node 1 (.leaf 1028755045)
 (.leaf 110227310500000000000000000000))
 (.node 1 (.leaf 1027353095)
 (.leaf 1035806489)))
 (.node 2 (.node 1 (.leaf 1006720364)
 (.leaf 1024041402))
 (.node 1 (.leaf 1048978886)
 (.leaf 1055995115))))
 (.node 4 (.node 2 (.node 1 (.leaf 771068054458000000000000000000000000000000)
 (.leaf 111047867698000000000000000000001019641371))
 (.node 1 (.leaf 1056718587)
 (.leaf 1072343264)))
 (.node 2 (.node 1 (.leaf 1058755326)
 (.leaf 111707437100000000000000000000))
 (.node 1 (.leaf 1050245315)
 (.leaf 108232345400000000000000000000)))))))
 (.node 32 (.node 16 (.node 8 (.node 4 (.node 2 (.node 1 (.leaf 110398679300000000000000000000)
 (.leaf 1011908631))
 (.node 1 (.leaf 11102912212000000000011029122120000000000)
 (.leaf 11107176247106515056411071762470000000000)))
 (.node 2 (.node 1 (.leaf 11102617687000000000011026176870000000000)
 (.leaf 11110020293000000000011100202930000000000))
 (.node 1 (.leaf 1063528992)
 (.leaf 1007337617))))
 (.node 4 (.node 2 (.node 1 (.leaf 301082882146000000000000000000001048086123)
 (.leaf 1039096934))
 (.node 1 (.leaf 103263059800000000001057158876)
 (.leaf 1019524019)))
 (.node 2 (.node 1 (.leaf 1041978722)
 (.leaf 1039659707))
 (.node 1 (.leaf 881035500703000000000000000000001023845063)
 (.leaf 451045564007000000000000000000001017422921)))))
 (.node 8 (.node 4 (.node 2 (.node 1 (.leaf 451072675900000000000000000000001013716643)
 (.leaf 1028392297))
 (.node 1 (.leaf 1021586363)
 (.leaf 1024152235)))
 (.node 2 (.node 1 (.leaf 1019294505)
 (.leaf 108422903100000000000000000000))
 (.node 1 (.leaf 1033217994)
 (.leaf 1040496381))))
 (.node 4 (.node 2 (.node 1 (.leaf 861060580371000000000000000000000000000000)
 (.leaf 1050354233))
 (.node 1 (.leaf 1040583292)
 (.leaf 1063109461)))
 (.node 2 (.node 1 (.leaf 108634832900000000000000000000)
 (.leaf 104222052200000000000000000000))
 (.node 1 (.leaf 1046748801)
 (.leaf 1044754301))))))
 (.node 16 (.node 8 (.node 4 (.node 2 (.node 1 (.leaf 1032434978)
 (.leaf 761049014753000000000000000000000000000000))
 (.node 1 (.leaf 11073052810000000000010730528100000000000)
 (.leaf 1052107489)))
 (.node 2 (.node 1 (.leaf 108500590000000000000000000000)
 (.leaf 108866052300000000000000000000))
 (.node 1 (.leaf 1035439373)
 (.leaf 1033862891))))
 (.node 4 (.node 2 (.node 1 (.leaf 91042172093000000000000000000000000000000)
 (.leaf 571063883504000000000000000000000000000000))
 (.node 1 (.leaf 1041642452)
 (.leaf 1053906045)))
 (.node 2 (.node 1 (.leaf 111502780000000000000000000000)
 (.leaf 1049602933))
 (.node 1 (.leaf 109762136000000000000000000000)
 (.leaf 110620662800000000000000000000)))))
 (.node 8 (.node 4 (.node 2 (.node 1 (.leaf 110358157100000000000000000000)
 (.leaf 111022094400000000000000000000))
 (.node 1 (.leaf 109089611800000000000000000000)
 (.leaf 1067595842)))
 (.node 2 (.node 1 (.leaf 1074654278)
 (.leaf 1036286218))
 (.node 1 (.leaf 1060638125)
 (.leaf 391041425111000000000000000000001030990421))))
 (.node 4 (.node 2 (.node 1 (.leaf 1035761315)
 (.leaf 1050179423))
 (.node 1 (.leaf 1025391950)
 (.leaf 1027072183)))
 (.node 2 (.node 1 (.leaf 1050859671)
 (.leaf 881054080098000000000000000000001051188648))
 (.node 1 (.leaf 881043996642000000000000000000001049935666)
 (.leaf 451053262761000000000000000000001057080461))))))))))
 (.node 256 (.node 128 (.node 64 (.node 32 (.node 16 (.node 8 (.node 4 (.node 2 (.node 1 (.leaf 451038803254000000000000000000000000000000)
 (.leaf 1039204515))
 (.node 1 (.leaf 1038652040)
 (.leaf 1017579624)))
 (.node 2 (.node 1 (.leaf 1050579795)
 (.leaf 1033195090))
 (.node 1 (.leaf 108427600700000000000000000000)
 (.leaf 1057070599))))
 (.node 4 (.node 2 (.node 1 (.leaf 671065114703000000000000000000000000000000)
 (.leaf 1056136767))
 (.node 1 (.leaf 1034846018)
 (.leaf 1043114820)))
 (.node 2 (.node 1 (.leaf 1027185729)
 (.leaf 1044762542))
 (.node 1 (.leaf 561032900266000000000000000000001030054085)
 (.leaf 1035365305)))))
 (.node 8 (.node 4 (.node 2 (.node 1 (.leaf 1027539817)
 (.leaf 1054808814))
 (.node 1 (.leaf 1065038626)
 (.leaf 1050977552)))
 (.node 2 (.node 1 (.leaf 1052985174)
 (.leaf 801046124190000000000000000000000000000000))
 (.node 1 (.leaf 1058103455)
 (.leaf 99660251500000000000000000000))))
 (.node 4 (.node 2 (.node 1 (.leaf 109594521100000000000000000000)
 (.leaf 110657693300000000000000000000))
 (.node 1 (.leaf 110964719000000000000000000000)
 (.leaf 1050275550)))
 (.node 2 (.node 1 (.leaf 1079409030)
 (.leaf 1034531643))
 (.node 1 (.leaf 1043871531)
 (.leaf 1036402506))))))
 (.node 16 (.node 8 (.node 4 (.node 2 (.node 1 (.leaf 1058255136)
 (.leaf 1059952997))
 (.node 1 (.leaf 108463755600000000000000000000)
 (.leaf 1067843100)))
 (.node 2 (.node 1 (.leaf 1020870371)
 (.leaf 1054529040))
 (.node 1 (.leaf 111337852100000000000000000000)
 (.leaf 1040389565))))
 (.node 4 (.node 2 (.node 1 (.leaf 1048778212)
 (.leaf 111769453900000000000000000000))
 (.node 1 (.leaf 111054005200000000000000000000)
 (.leaf 107999427300000000000000000000)))
 (.node 2 (.node 1 (.leaf 541063047735000000000000000000000000000000)
 (.leaf 1049004674))
 (.node 1 (.leaf 1046904844)
 (.leaf 391082812619000000000000000000000000000000)))))
 (.node 8 (.node 4 (.node 2 (.node 1 (.leaf 1047285028)
 (.leaf 1029160563))
 (.node 1 (.leaf 1051187177)
 (.leaf 1040602531)))
 (.node 2 (.node 1 (.leaf 1045253630)
 (.leaf 1067115539))
 (.node 1 (.leaf 601048924946000000000000000000001054640681)
 (.leaf 1036851740))))
 (.node 4 (.node 2 (.node 1 (.leaf 981794500)
 (.leaf 1028086051))
 (.node 1 (.leaf 1049378666)
 (.leaf 561064984215000000000000000000001040706604)))
 (.node 2 (.node 1 (.leaf 1051066980)
 (.leaf 861048305887000000000000000000001038323505))
 (.node 1 (.leaf 1023652197)
 (.leaf 105335804300000000000000000000)))))))
 (.node 32 (.node 16 (.node 8 (.node 4 (.node 2 (.node 1 (.leaf 1030152857)
 (.leaf 1016437025))
 (.node 1 (.leaf 1010788502)
 (.leaf 1038564560)))
 (.node 2 (.node 1 (.leaf 1024088272)
 (.leaf 992089275))
 (.node 1 (.leaf 1026930098)
 (.leaf 1046759519))))
 (.node 4 (.node 2 (.node 1 (.leaf 1023938440)
 (.leaf 104087170100000000001061126372))
 (.node 1 (.leaf 1054795587)
 (.leaf 109205951300000000000000000000)))
 (.node 2 (.node 1 (.leaf 1043600806)
 (.leaf 1042587003))
 (.node 1 (.leaf 109466259300000000000000000000)
 (.leaf 111650357900000000000000000000)))))
 (.node 8 (.node 4 (.node 2 (.node 1 (.leaf 110789064100000000000000000000)
 (.leaf 1034648911))
 (.node 1 (.leaf 1040830251)
 (.leaf 111171435200000000000000000000)))
 (.node 2 (.node 1 (.leaf 331069194266109926620900000000000000000000)
 (.leaf 331064251087103254139700000000000000000000))
 (.node 1 (.leaf 651066810994000000000000000000001042522406)
 (.leaf 1046089185))))
 (.node 4 (.node 2 (.node 1 (.leaf 1053366110)
 (.leaf 1034118431))
 (.node 1 (.leaf 1026617613)
 (.leaf 1061464660)))
 (.node 2 (.node 1 (.leaf 641060201089000000000000000000001056677003)
 (.leaf 1042575005))
 (.node 1 (.leaf 1027554434)
 (.leaf 1024603568))))))
 (.node 16 (.node 8 (.node 4 (.node 2 (.node 1 (.leaf 1038399869)
 (.leaf 1031678777))
 (.node 1 (.leaf 1023003770)
 (.leaf 1031530924)))
 (.node 2 (.node 1 (.leaf 1057390390)
 (.leaf 1052785268))
 (.node 1 (.leaf 691043694180000000000000000000001055329971)
 (.leaf 1044830126))))
 (.node 4 (.node 2 (.node 1 (.leaf 1071528209)
 (.leaf 761057376824000000000000000000001059231223))
 (.node 1 (.leaf 1057303809)
 (.leaf 1034019502)))
 (.node 2 (.node 1 (.leaf 109454420900000000000000000000)
 (.leaf 1035030915))
 (.node 1 (.leaf 1031112873)
 (.leaf 1044368487)))))
 (.node 8 (.node 4 (.node 2 (.node 1 (.leaf 1041289922)
 (.leaf 1016984185))
 (.node 1 (.leaf 621057411916000000000000000000000000000000)
 (.leaf 1041183209)))
 (.node 2 (.node 1 (.leaf 1058036081)
 (.leaf 1025380986))
 (.node 1 (.leaf 1040923365)
 (.leaf 1038847785))))
 (.node 4 (.node 2 (.node 1 (.leaf 1035221332)
 (.leaf 1040581311))
 (.node 1 (.leaf 109275324100000000000000000000)
 (.leaf 109193651600000000000000000000)))
 (.node 2 (.node 1 (.leaf 105901683100000000000000000000)
 (.leaf 1065303075))
 (.node 1 (.leaf 1072801257)
 (.leaf 330990681957000000000000000000001061999558))))))))
 (.node 64 (.node 32 (.node 16 (.node 8 (.node 4 (.node 2 (.node 1 (.leaf 1064269346)
 (.leaf 1064181562))
 (.node 1 (.leaf 1043200379)
 (.leaf 1032994265)))
 (.node 2 (.node 1 (.leaf 1043875213)
 (.leaf 1032863724))
 (.node 1 (.leaf 1029457467)
 (.leaf 1028920803))))
 (.node 4 (.node 2 (.node 1 (.leaf 691048881690109311447500000000001031970525)
 (.leaf 104181800300000000001040383536))
 (.node 1 (.leaf 1065451697)
 (.leaf 1058669207)))
 (.node 2 (.node 1 (.leaf 1042512079)
 (.leaf 1131026396052000000000000000000000000000000))
 (.node 1 (.leaf 651080953888000000000000000000000000000000)
 (.leaf 1040178418)))))
 (.node 8 (.node 4 (.node 2 (.node 1 (.leaf 1035752699)
 (.leaf 1033470394))
 (.node 1 (.leaf 1044841064)
 (.leaf 711058848859000000000000000000000000000000)))
 (.node 2 (.node 1 (.leaf 1023565293)
 (.leaf 1035659053))
 (.node 1 (.leaf 107865972900000000000000000000)
 (.leaf 110078428400000000000000000000))))
 (.node 4 (.node 2 (.node 1 (.leaf 1062533101)
 (.leaf 1038412297))
 (.node 1 (.leaf 1032821083)
 (.leaf 1032781442)))
 (.node 2 (.node 1 (.leaf 1043401358)
 (.leaf 1032607488))
 (.node 1 (.leaf 1059170366)
 (.leaf 1039455443))))))
 (.node 16 (.node 8 (.node 4 (.node 2 (.node 1 (.leaf 721063389271000000000000000000000000000000)
 (.leaf 106951354600000000001038240019))
 (.node 1 (.leaf 1065806127)
 (.leaf 1066656924)))
 (.node 2 (.node 1 (.leaf 1049013299)
 (.leaf 1042528112))
 (.node 1 (.leaf 1039856371)
 (.leaf 1039605404))))
 (.node 4 (.node 2 (.node 1 (.leaf 1051226743)
 (.leaf 1053544545))
 (.node 1 (.leaf 1019654823)
 (.leaf 1050826471)))
 (.node 2 (.node 1 (.leaf 1064801821)
 (.leaf 1048012567))
 (.node 1 (.leaf 1019837572)
 (.leaf 1032394958)))))
 (.node 8 (.node 4 (.node 2 (.node 1 (.leaf 1050086587)
 (.leaf 1064729411))
 (.node 1 (.leaf 571062059706000000000000000000001023490498)
 (.leaf 1025276960)))
 (.node 2 (.node 1 (.leaf 1011216483)
 (.leaf 1020422055))
 (.node 1 (.leaf 1057699211)
 (.leaf 1034058706))))
 (.node 4 (.node 2 (.node 1 (.leaf 1041717653)
 (.leaf 1046386554))
 (.node 1 (.leaf 109153150300000000000000000000)
 (.leaf 108829979200000000000000000000)))
 (.node 2 (.node 1 (.leaf 1053274629)
 (.leaf 1049888316))
 (.node 1 (.leaf 105420737300000000001040088554)
 (.leaf 101350458600000000001025032659)))))))
 (.node 32 (.node 16 (.node 8 (.node 4 (.node 2 (.node 1 (.leaf 1037168820)
 (.leaf 1044948721))
 (.node 1 (.leaf 1026244386)
 (.leaf 1034261242)))
 (.node 2 (.node 1 (.leaf 105956303000000000000000000000)
 (.leaf 108907817100000000000000000000))
 (.node 1 (.leaf 108750415300000000000000000000)
 (.leaf 1019309121))))
 (.node 4 (.node 2 (.node 1 (.leaf 1040509106)
 (.leaf 1032134653))
 (.node 1 (.leaf 431064643763000000000000000000000000000000)
 (.leaf 341054881649000000000000000000000000000000)))
 (.node 2 (.node 1 (.leaf 1034651634)
 (.leaf 1036897219))
 (.node 1 (.leaf 1024596398)
 (.leaf 1043966642)))))
 (.node 8 (.node 4 (.node 2 (.node 1 (.leaf 1066187387)
 (.leaf 109074336200000000000000000000))
 (.node 1 (.leaf 109548950000000000000000000000)
 (.leaf 105741321400000000000000000000)))
 (.node 2 (.node 1 (.leaf 1012069293)
 (.leaf 721076219438000000000000000000001049242273))
 (.node 1 (.leaf 1040014828)
 (.leaf 491065742247000000000000000000001049801518))))
 (.node 4 (.node 2 (.node 1 (.leaf 1065804017)
 (.leaf 1061873668))
 (.node 1 (.leaf 1044872429)
 (.leaf 1050093967)))
 (.node 2 (.node 1 (.leaf 1008331525)
 (.leaf 1056401169))
 (.node 1 (.leaf 1063216724)
 (.leaf 1047038780))))))
 (.node 16 (.node 8 (.node 4 (.node 2 (.node 1 (.leaf 731067879273000000000000000000000000000000)
 (.leaf 1040993886))
 (.node 1 (.leaf 1039107799)
 (.leaf 1041070183)))
 (.node 2 (.node 1 (.leaf 1052360644)
 (.leaf 611065614647000000000000000000001047292047))
 (.node 1 (.leaf 1060769466)
 (.leaf 1048475273))))
 (.node 4 (.node 2 (.node 1 (.leaf 1021627300)
 (.leaf 1025104713))
 (.node 1 (.leaf 1039147225)
 (.leaf 1033308746)))
 (.node 2 (.node 1 (.leaf 108399140300000000001034674738)
 (.leaf 108884108800000000000000000000))
 (.node 1 (.leaf 1030136203)
 (.leaf 1042009854)))))
 (.node 8 (.node 4 (.node 2 (.node 1 (.leaf 1047948289)
 (.leaf 1053444153))
 (.node 1 (.leaf 1111060091954000000000000000000001027404798)
 (.leaf 661060480059000000000000000000000000000000)))
 (.node 2 (.node 1 (.leaf 1051461034)
 (.leaf 1023506826))
 (.node 1 (.leaf 109126575200000000000000000000)
 (.leaf 1049739162))))
 (.node 4 (.node 2 (.node 1 (.leaf 1043425843)
 (.leaf 104636221300000000000000000000))
 (.node 1 (.leaf 601065037525000000000000000000001040212019)
 (.leaf 601082443051000000000000000000000000000000)))
 (.node 2 (.node 1 (.leaf 1047983980)
 (.leaf 1035368930))
 (.node 1 (.leaf 1032690512)
 (.leaf 110564497860431070370376000000000000000000000000000000)))))))))
 (.node 128 (.node 64 (.node 32 (.node 16 (.node 8 (.node 4 (.node 2 (.node 1 (.leaf 110516734780801066232570000000000000000000000000000000)
 (.leaf 381057556899000000000000000000000000000000))
 (.node 1 (.leaf 1012015490)
 (.leaf 1030822463)))
 (.node 2 (.node 1 (.leaf 997445732)
 (.leaf 995633102))
 (.node 1 (.leaf 1043411292)
 (.leaf 1055751404))))
 (.node 4 (.node 2 (.node 1 (.leaf 1019837774)
 (.leaf 1049526531))
 (.node 1 (.leaf 1055723161)
 (.leaf 1061944495)))
 (.node 2 (.node 1 (.leaf 1036490253)
 (.leaf 1030011672))
 (.node 1 (.leaf 701066134562000000000000000000001055600992)
 (.leaf 1048045593)))))
 (.node 8 (.node 4 (.node 2 (.node 1 (.leaf 1041497885)
 (.leaf 1051438149))
 (.node 1 (.leaf 1057189017)
 (.leaf 1043308818)))
 (.node 2 (.node 1 (.leaf 1054212972)
 (.leaf 1058285305))
 (.node 1 (.leaf 1015365188)
 (.leaf 1060861002))))
 (.node 4 (.node 2 (.node 1 (.leaf 1051127405)
 (.leaf 551065498361000000000000000000000000000000))
 (.node 1 (.leaf 1051875725)
 (.leaf 1062288129)))
 (.node 2 (.node 1 (.leaf 1121053025923000000000000000000000000000000)
 (.leaf 1045095717))
 (.node 1 (.leaf 1039195069)
 (.leaf 1060496494))))))
 (.node 16 (.node 8 (.node 4 (.node 2 (.node 1 (.leaf 1061131753)
 (.leaf 1039023074))
 (.node 1 (.leaf 1030785236)
 (.leaf 998936670)))
 (.node 2 (.node 1 (.leaf 1026117753)
 (.leaf 1042010540))
 (.node 1 (.leaf 861056980149000000000000000000000000000000)
 (.leaf 861062906289000000000000000000000000000000))))
 (.node 4 (.node 2 (.node 1 (.leaf 1043355348)
 (.leaf 1054329551))
 (.node 1 (.leaf 1055380215)
 (.leaf 1049639962)))
 (.node 2 (.node 1 (.leaf 108473677300000000001066035160)
 (.leaf 1033043920))
 (.node 1 (.leaf 701057700376000000000000000000001057469925)
 (.leaf 1058725530)))))
 (.node 8 (.node 4 (.node 2 (.node 1 (.leaf 11094156180000000000010941561801068657445)
 (.leaf 11085802098000000000010858020981032003468))
 (.node 1 (.leaf 1034885432)
 (.leaf 1046046361)))
 (.node 2 (.node 1 (.leaf 1038124288)
 (.leaf 1040186086))
 (.node 1 (.leaf 1052731776)
 (.leaf 1017216105))))
 (.node 4 (.node 2 (.node 1 (.leaf 1051255327)
 (.leaf 1053582491))
 (.node 1 (.leaf 1041796736)
 (.leaf 651070199821000000000000000000001050297202)))
 (.node 2 (.node 1 (.leaf 1045107463)
 (.leaf 1054119791))
 (.node 1 (.leaf 1023830907)
 (.leaf 1058560287)))))))
 (.node 32 (.node 16 (.node 8 (.node 4 (.node 2 (.node 1 (.leaf 1058872696)
 (.leaf 1041286270))
 (.node 1 (.leaf 1047301436)
 (.leaf 1053973536)))
 (.node 2 (.node 1 (.leaf 1033296448)
 (.leaf 1038358601))
 (.node 1 (.leaf 1034793441)
 (.leaf 1027879903))))
 (.node 4 (.node 2 (.node 1 (.leaf 1045391605)
 (.leaf 1044780199))
 (.node 1 (.leaf 1040362145)
 (.leaf 1040592604)))
 (.node 2 (.node 1 (.leaf 1017273134)
 (.leaf 1060479602))
 (.node 1 (.leaf 101797081500000000000000000000)
 (.leaf 107294339600000000000000000000)))))
 (.node 8 (.node 4 (.node 2 (.node 1 (.leaf 1054515916)
 (.leaf 1033720404))
 (.node 1 (.leaf 1002319365)
 (.leaf 1051980413)))
 (.node 2 (.node 1 (.leaf 821052416076000000000000000000000000000000)
 (.leaf 11073776547000000000010737765471061725915))
 (.node 1 (.leaf 11065355400000000000010653554001025308179)
 (.leaf 1015946543))))
 (.node 4 (.node 2 (.node 1 (.leaf 1027870997)
 (.leaf 651037425418000000000000000000001024111428))
 (.node 1 (.leaf 1048082114)
 (.leaf 1065595249)))
 (.node 2 (.node 1 (.leaf 1040424508)
 (.leaf 1032968160))
 (.node 1 (.leaf 1029336800)
 (.leaf 1064979672))))))
 (.node 16 (.node 8 (.node 4 (.node 2 (.node 1 (.leaf 1060097260)
 (.leaf 1054567474))
 (.node 1 (.leaf 1032017519)
 (.leaf 1051319995)))
 (.node 2 (.node 1 (.leaf 1037727685)
 (.leaf 1050493862))
 (.node 1 (.leaf 1049796335)
 (.leaf 1034863107))))
 (.node 4 (.node 2 (.node 1 (.leaf 1041917909)
 (.leaf 611044453960000000000000000000000000000000))
 (.node 1 (.leaf 890990193857000000000000000000000000000000)
 (.leaf 1045789207)))
 (.node 2 (.node 1 (.leaf 1033504055)
 (.leaf 1033227559))
 (.node 1 (.leaf 651069371207000000000000000000000000000000)
 (.leaf 761059460452000000000000000000000000000000)))))
 (.node 8 (.node 4 (.node 2 (.node 1 (.leaf 1091031271478000000000000000000000000000000)
 (.leaf 109030777300000000000000000000))
 (.node 1 (.leaf 108238475400000000000000000000)
 (.leaf 1019875036)))
 (.node 2 (.node 1 (.leaf 108348812800000000000000000000)
 (.leaf 105706775400000000000000000000))
 (.node 1 (.leaf 1056314064)
 (.leaf 1049310850))))
 (.node 4 (.node 2 (.node 1 (.leaf 1035271505)
 (.leaf 1031359918))
 (.node 1 (.leaf 1031071439651000000000000000000000000000000)
 (.leaf 1037664883)))
 (.node 2 (.node 1 (.leaf 1042543923)
 (.leaf 571008061166000000000000000000001042502448))
 (.node 1 (.leaf 6310644244520791067430269000000000000000000001066840492)
 (.leaf 1053781688))))))))
 (.node 64 (.node 32 (.node 16 (.node 8 (.node 4 (.node 2 (.node 1 (.leaf 107629745500000000001053036534)
 (.leaf 1038949950))
 (.node 1 (.leaf 1043848231)
 (.leaf 1027300575)))
 (.node 2 (.node 1 (.leaf 1033841288)
 (.leaf 1065479409))
 (.node 1 (.leaf 711045739560000000000000000000000000000000)
 (.leaf 711077098270000000000000000000000000000000))))
 (.node 4 (.node 2 (.node 1 (.leaf 1068354398)
 (.leaf 1046630834))
 (.node 1 (.leaf 741059525282000000000000000000001060763520)
 (.leaf 651045111686000000000000000000001045111559)))
 (.node 2 (.node 1 (.leaf 781027114989000000000000000000001029935990)
 (.leaf 1007525510))
 (.node 1 (.leaf 1023487093)
 (.leaf 1010558210)))))
 (.node 8 (.node 4 (.node 2 (.node 1 (.leaf 1030278109)
 (.leaf 1043246937))
 (.node 1 (.leaf 1058967773)
 (.leaf 451053171693000000000000000000001049152487)))
 (.node 2 (.node 1 (.leaf 1034351549)
 (.leaf 1002791093))
 (.node 1 (.leaf 761030133758000000000000000000000000000000)
 (.leaf 1032546499))))
 (.node 4 (.node 2 (.node 1 (.leaf 1050384428)
 (.leaf 108216214100000000000000000000))
 (.node 1 (.leaf 103214925300000000000000000000)
 (.leaf 1022381963)))
 (.node 2 (.node 1 (.leaf 1131056729723000000000000000000001015302736)
 (.leaf 1036327469))
 (.node 1 (.leaf 871067757551000000000000000000001036096600)
 (.leaf 971063969006000000000000000000000000000000))))))
 (.node 16 (.node 8 (.node 4 (.node 2 (.node 1 (.leaf 991067654150000000000000000000000000000000)
 (.leaf 109312705800000000000000000000))
 (.node 1 (.leaf 107510644100000000000000000000)
 (.leaf 851075134839000000000000000000000000000000)))
 (.node 2 (.node 1 (.leaf 801034478365000000000000000000001033201408)
 (.leaf 108517505600000000000000000000))
 (.node 1 (.leaf 1041607787)
 (.leaf 1058789097))))
 (.node 4 (.node 2 (.node 1 (.leaf 731050721723000000000000000000001005061042)
 (.leaf 1035140267))
 (.node 1 (.leaf 1035457155)
 (.leaf 1022271056)))
 (.node 2 (.node 1 (.leaf 1054323731)
 (.leaf 1062292148))
 (.node 1 (.leaf 1050025709)
 (.leaf 107389126700000000001046399181)))))
 (.node 8 (.node 4 (.node 2 (.node 1 (.leaf 106850582300000000001059577583)
 (.leaf 1024730232))
 (.node 1 (.leaf 1043089006)
 (.leaf 631078113635000000000000000000000000000000)))
 (.node 2 (.node 1 (.leaf 1017475218)
 (.leaf 1036018326))
 (.node 1 (.leaf 1038023678)
 (.leaf 1050492286))))
 (.node 4 (.node 2 (.node 1 (.leaf 1067353046)
 (.leaf 1052291775))
 (.node 1 (.leaf 1053580569)
 (.leaf 611067448988000000000000000000000000000000)))
 (.node 2 (.node 1 (.leaf 311034392485000000000000000000000000000000)
 (.leaf 1033007596))
 (.node 1 (.leaf 1027472625)
 (.leaf 1051598556)))))))
 (.node 32 (.node 16 (.node 8 (.node 4 (.node 2 (.node 1 (.leaf 1059884211)
 (.leaf 1046159330))
 (.node 1 (.leaf 741002281466000000000000000000001002340246)
 (.leaf 1031366339)))
 (.node 2 (.node 1 (.leaf 1041470467)
 (.leaf 1062957418))
 (.node 1 (.leaf 1031066395505000000000000000000001044040263)
 (.leaf 1029889304))))
 (.node 4 (.node 2 (.node 1 (.leaf 1046706846)
 (.leaf 991954173))
 (.node 1 (.leaf 1049542181)
 (.leaf 1034018534)))
 (.node 2 (.node 1 (.leaf 1033453908)
 (.leaf 1048663720))
 (.node 1 (.leaf 1030122343)
 (.leaf 108686466900000000000000000000)))))
 (.node 8 (.node 4 (.node 2 (.node 1 (.leaf 108852357900000000000000000000)
 (.leaf 109526667800000000000000000000))
 (.node 1 (.leaf 109729472800000000000000000000)
 (.leaf 1026160127)))
 (.node 2 (.node 1 (.leaf 1018735729)
 (.leaf 921063730373000000000000000000000000000000))
 (.node 1 (.leaf 1131033355258000000000000000000000000000000)
 (.leaf 1131021401011000000000000000000000000000000))))
 (.node 4 (.node 2 (.node 1 (.leaf 1013763376)
 (.leaf 1028473733))
 (.node 1 (.leaf 1026399693)
 (.leaf 1024926091)))
 (.node 2 (.node 1 (.leaf 1027149090)
 (.leaf 1058035614))
 (.node 1 (.leaf 671073792232000000000000000000000000000000)
 (.leaf 421057631210000000000000000000001057280995))))))
 (.node 16 (.node 8 (.node 4 (.node 2 (.node 1 (.leaf 1058684756)
 (.leaf 631052760042000000000000000000000000000000))
 (.node 1 (.leaf 1022919171)
 (.leaf 1040259492)))
 (.node 2 (.node 1 (.leaf 1042570864)
 (.leaf 1044554996))
 (.node 1 (.leaf 1044836434)
 (.leaf 1032325399))))
 (.node 4 (.node 2 (.node 1 (.leaf 691051429187000000000000000000000000000000)
 (.leaf 1038391822))
 (.node 1 (.leaf 421049607159000000000000000000000000000000)
 (.leaf 411044125977000000000000000000001039768339)))
 (.node 2 (.node 1 (.leaf 661043510188000000000000000000000000000000)
 (.leaf 511055955782000000000000000000000000000000))
 (.node 1 (.leaf 731027034534000000000000000000001032877650)
 (.leaf 1038609698)))))
 (.node 8 (.node 4 (.node 2 (.node 1 (.leaf 1028884982)
 (.leaf 1046778076))
 (.node 1 (.leaf 1015499642)
 (.leaf 1032331855)))
 (.node 2 (.node 1 (.leaf 1049603445)
 (.leaf 1032638268))
 (.node 1 (.leaf 1044417155)
 (.leaf 1033707167))))
 (.node 4 (.node 2 (.node 1 (.leaf 1029724460)
 (.leaf 1043104158))
 (.node 1 (.leaf 1054923959)
 (.leaf 1080398801)))
 (.node 2 (.node 1 (.leaf 1022894124)
 (.leaf 1050180456))
 (.node 1 (.leaf 1050024581)
 (.leaf 1026059538))))))))))))
 (.node 1024 (.node 512 (.node 256 (.node 128 (.node 64 (.node 32 (.node 16 (.node 8 (.node 4 (.node 2 (.node 1 (.leaf 1030352279)
 (.leaf 1040895468))
 (.node 1 (.leaf 1030910055)
 (.leaf 1036471039)))
 (.node 2 (.node 1 (.leaf 1009606259)
 (.leaf 1045969616))
 (.node 1 (.leaf 921075916247000000000000000000000000000000)
 (.leaf 1050321196))))
 (.node 4 (.node 2 (.node 1 (.leaf 107513689100000000000000000000)
 (.leaf 110686702100000000000000000000))
 (.node 1 (.leaf 1141022232121000000000000000000001032403876)
 (.leaf 994054771)))
 (.node 2 (.node 1 (.leaf 1038829666)
 (.leaf 1045402810))
 (.node 1 (.leaf 1007789108)
 (.leaf 601054444351000000000000000000001054123689)))))
 (.node 8 (.node 4 (.node 2 (.node 1 (.leaf 1036104987)
 (.leaf 1005555542))
 (.node 1 (.leaf 671018446013000000000000000000000000000000)
 (.leaf 1030760051)))
 (.node 2 (.node 1 (.leaf 621064344141000000000000000000000000000000)
 (.leaf 1057110665))
 (.node 1 (.leaf 1029320401)
 (.leaf 401020782731000000000000000000000000000000))))
 (.node 4 (.node 2 (.node 1 (.leaf 511062057553000000000000000000000000000000)
 (.leaf 441038006231000000000000000000000000000000))
 (.node 1 (.leaf 641067736370000000000000000000000000000000)
 (.leaf 641007565819000000000000000000000000000000)))
 (.node 2 (.node 1 (.leaf 501038930042000000000000000000000000000000)
 (.leaf 1051349002))
 (.node 1 (.leaf 631068491001000000000000000000000000000000)
 (.leaf 1047474192))))))
 (.node 16 (.node 8 (.node 4 (.node 2 (.node 1 (.leaf 1057335352)
 (.leaf 1046267137))
 (.node 1 (.leaf 1052276505)
 (.leaf 1046555500)))
 (.node 2 (.node 1 (.leaf 1019644715)
 (.leaf 1043476360))
 (.node 1 (.leaf 1037281210)
 (.leaf 1029426965))))
 (.node 4 (.node 2 (.node 1 (.leaf 1050413773)
 (.leaf 1049682785))
 (.node 1 (.leaf 1052645066)
 (.leaf 1024538550)))
 (.node 2 (.node 1 (.leaf 1039648485)
 (.leaf 1121073812355000000000000000000000000000000))
 (.node 1 (.leaf 1058213942)
 (.leaf 1038182899)))))
 (.node 8 (.node 4 (.node 2 (.node 1 (.leaf 831065372373000000000000000000000000000000)
 (.leaf 1040792520))
 (.node 1 (.leaf 106768734600000000000000000000)
 (.leaf 110717179000000000000000000000)))
 (.node 2 (.node 1 (.leaf 110482827500000000000000000000)
 (.leaf 1049630472))
 (.node 1 (.leaf 1033082259)
 (.leaf 1053805117))))
 (.node 4 (.node 2 (.node 1 (.leaf 8110297311900861034122429000000000000000000001037650881)
 (.leaf 861069451869000000000000000000000000000000))
 (.node 1 (.leaf 771077570019000000000000000000000000000000)
 (.leaf 1000691984)))
 (.node 2 (.node 1 (.leaf 1041407703)
 (.leaf 1033954274))
 (.node 1 (.leaf 1062117215)
 (.leaf 1042413606)))))))
 (.node 32 (.node 16 (.node 8 (.node 4 (.node 2 (.node 1 (.leaf 1020873486)
 (.leaf 1032612827))
 (.node 1 (.leaf 1049461436)
 (.leaf 997525149)))
 (.node 2 (.node 1 (.leaf 401045399437000000000000000000001055670442)
 (.leaf 631051342786000000000000000000001030118943))
 (.node 1 (.leaf 631075961403000000000000000000000000000000)
 (.leaf 5110405764010591045964332000000000000000000000000000000))))
 (.node 4 (.node 2 (.node 1 (.leaf 1040281927)
 (.leaf 441083987461000000000000000000000000000000))
 (.node 1 (.leaf 431036079457000000000000000000000000000000)
 (.leaf 3610757947490411076207387000000000000000000000000000000)))
 (.node 2 (.node 1 (.leaf 501057513429000000000000000000001054191987)
 (.leaf 501051750582000000000000000000000000000000))
 (.node 1 (.leaf 1045695881)
 (.leaf 1018471946)))))
 (.node 8 (.node 4 (.node 2 (.node 1 (.leaf 1060055782)
 (.leaf 811067121298000000000000000000000000000000))
 (.node 1 (.leaf 5310653834370631065643395000000000000000000000000000000)
 (.leaf 1059619541)))
 (.node 2 (.node 1 (.leaf 1038393305)
 (.leaf 1042849232))
 (.node 1 (.leaf 1091041375656000000000000000000001017161466)
 (.leaf 1091054297376000000000000000000000962436573))))
 (.node 4 (.node 2 (.node 1 (.leaf 1052385911)
 (.leaf 1051059183745000000000000000000001035907887))
 (.node 1 (.leaf 1045442710)
 (.leaf 1040893452)))
 (.node 2 (.node 1 (.leaf 1044516260)
 (.leaf 1044718389))
 (.node 1 (.leaf 1032813963)
 (.leaf 711051197036000000000000000000000000000000))))))
 (.node 16 (.node 8 (.node 4 (.node 2 (.node 1 (.leaf 1054572784)
 (.leaf 1043885043))
 (.node 1 (.leaf 106360130600000000000000000000)
 (.leaf 1038722593)))
 (.node 2 (.node 1 (.leaf 1041176297)
 (.leaf 1017169944))
 (.node 1 (.leaf 1048124394)
 (.leaf 1050004909))))
 (.node 4 (.node 2 (.node 1 (.leaf 1042854846)
 (.leaf 811058292890000000000000000000000000000000))
 (.node 1 (.leaf 811066772194000000000000000000001017045810)
 (.leaf 771023982653000000000000000000000948106505)))
 (.node 2 (.node 1 (.leaf 1047522399)
 (.leaf 1020418775))
 (.node 1 (.leaf 1058480515)
 (.leaf 1048802744)))))
 (.node 8 (.node 4 (.node 2 (.node 1 (.leaf 1044315865)
 (.leaf 1018722593))
 (.node 1 (.leaf 1018756522)
 (.leaf 11084724788000000000010847247881003700306)))
 (.node 2 (.node 1 (.leaf 1048064297)
 (.leaf 350998857805000000000000000000000000000000))
 (.node 1 (.leaf 1040289721)
 (.leaf 1032071953))))
 (.node 4 (.node 2 (.node 1 (.leaf 1028267884)
 (.leaf 441074312304000000000000000000001040484476))
 (.node 1 (.leaf 671019516335000000000000000000000995243873)
 (.leaf 1033274306)))
 (.node 2 (.node 1 (.leaf 1029164537)
 (.leaf 1066298083))
 (.node 1 (.leaf 631077370426000000000000000000000000000000)
 (.leaf 1009374269))))))))
 (.node 64 (.node 32 (.node 16 (.node 8 (.node 4 (.node 2 (.node 1 (.leaf 107978350900000000000000000000)
 (.leaf 1061264333))
 (.node 1 (.leaf 1035843245)
 (.leaf 1033973613)))
 (.node 2 (.node 1 (.leaf 990689771)
 (.leaf 1021404891))
 (.node 1 (.leaf 590996398661000000000000000000000000000000)
 (.leaf 801044062753000000000000000000001048573662))))
 (.node 4 (.node 2 (.node 1 (.leaf 1031561638)
 (.leaf 109190948300000000000000000000))
 (.node 1 (.leaf 109214397600000000000000000000)
 (.leaf 109086717800000000000000000000)))
 (.node 2 (.node 1 (.leaf 105554736900000000000000000000)
 (.leaf 1001740174))
 (.node 1 (.leaf 1022289003)
 (.leaf 1034175773)))))
 (.node 8 (.node 4 (.node 2 (.node 1 (.leaf 1032404117)
 (.leaf 1041024882665000000000000000000001017982933))
 (.node 1 (.leaf 1041045238318000000000000000000000000000000)
 (.leaf 107775422100000000000000000000)))
 (.node 2 (.node 1 (.leaf 1017539560)
 (.leaf 1061058921656000000000000000000001059088356))
 (.node 1 (.leaf 8910175690391061053229054000000000000000000000000000000)
 (.leaf 1042754521))))
 (.node 4 (.node 2 (.node 1 (.leaf 983409605)
 (.leaf 11027359734000000000010273597341028023137))
 (.node 1 (.leaf 1051599459)
 (.leaf 1039848454)))
 (.node 2 (.node 1 (.leaf 1041173343)
 (.leaf 1031760367))
 (.node 1 (.leaf 1027145692)
 (.leaf 1054354312))))))
 (.node 16 (.node 8 (.node 4 (.node 2 (.node 1 (.leaf 1034436160)
 (.leaf 1043051971))
 (.node 1 (.leaf 1024833131)
 (.leaf 621057880559000000000000000000001058365526)))
 (.node 2 (.node 1 (.leaf 701069605591000000000000000000001064335367)
 (.leaf 1060761059))
 (.node 1 (.leaf 1048384828)
 (.leaf 731052968674000000000000000000001041629841))))
 (.node 4 (.node 2 (.node 1 (.leaf 1058403714)
 (.leaf 1070316735))
 (.node 1 (.leaf 1052445362)
 (.leaf 107791943500000000000000000000)))
 (.node 2 (.node 1 (.leaf 1041040236)
 (.leaf 1040708049))
 (.node 1 (.leaf 1039051378)
 (.leaf 1012886421)))))
 (.node 8 (.node 4 (.node 2 (.node 1 (.leaf 1027091128)
 (.leaf 107247363400000000000000000000))
 (.node 1 (.leaf 107149074100000000000000000000)
 (.leaf 106478611300000000000000000000)))
 (.node 2 (.node 1 (.leaf 108013197200000000000000000000)
 (.leaf 108644819500000000000000000000))
 (.node 1 (.leaf 1059724420)
 (.leaf 1060946552))))
 (.node 4 (.node 2 (.node 1 (.leaf 1023221090)
 (.leaf 1049118354))
 (.node 1 (.leaf 1033042058)
 (.leaf 1028721621)))
 (.node 2 (.node 1 (.leaf 1038294534)
 (.leaf 1001992384))
 (.node 1 (.leaf 1034073226)
 (.leaf 994201136)))))))
 (.node 32 (.node 16 (.node 8 (.node 4 (.node 2 (.node 1 (.leaf 11101669289000000000011016692891030852169)
 (.leaf 1040541225))
 (.node 1 (.leaf 1032615121)
 (.leaf 1011748486)))
 (.node 2 (.node 1 (.leaf 1030362768)
 (.leaf 1057291316))
 (.node 1 (.leaf 1034161704)
 (.leaf 1063107986))))
 (.node 4 (.node 2 (.node 1 (.leaf 1062575255)
 (.leaf 1043532571))
 (.node 1 (.leaf 1054801319)
 (.leaf 6410505608860821050568316000000000000000000000000000000)))
 (.node 2 (.node 1 (.leaf 821075016355000000000000000000000000000000)
 (.leaf 491064246416000000000000000000000000000000))
 (.node 1 (.leaf 1041269914)
 (.leaf 531050570131000000000000000000000000000000)))))
 (.node 8 (.node 4 (.node 2 (.node 1 (.leaf 1072262402)
 (.leaf 1046538511))
 (.node 1 (.leaf 401067228903000000000000000000000000000000)
 (.leaf 391076116011000000000000000000000000000000)))
 (.node 2 (.node 1 (.leaf 741053275796000000000000000000000000000000)
 (.leaf 1059536057))
 (.node 1 (.leaf 1063212851)
 (.leaf 6210633367980731063635910000000000000000000001044546022))))
 (.node 4 (.node 2 (.node 1 (.leaf 6210741674120731084560866000000000000000000000000000000)
 (.leaf 1017170878))
 (.node 1 (.leaf 1037277670)
 (.leaf 1018874965)))
 (.node 2 (.node 1 (.leaf 1009286939)
 (.leaf 1027824924))
 (.node 1 (.leaf 1004851283)
 (.leaf 106535044800000000000000000000))))))
 (.node 16 (.node 8 (.node 4 (.node 2 (.node 1 (.leaf 106865648200000000000000000000)
 (.leaf 106615097300000000000000000000))
 (.node 1 (.leaf 108166050200000000000000000000)
 (.leaf 1026098528)))
 (.node 2 (.node 1 (.leaf 1030133956)
 (.leaf 1006770928))
 (.node 1 (.leaf 1049487592)
 (.leaf 1052215340))))
 (.node 4 (.node 2 (.node 1 (.leaf 1036081737)
 (.leaf 1028619163))
 (.node 1 (.leaf 1036059536)
 (.leaf 1042557210)))
 (.node 2 (.node 1 (.leaf 1024427485)
 (.leaf 1010010748))
 (.node 1 (.leaf 999214158)
 (.leaf 1051796772)))))
 (.node 8 (.node 4 (.node 2 (.node 1 (.leaf 1034263790)
 (.leaf 1035551838))
 (.node 1 (.leaf 1053792522)
 (.leaf 1037478878)))
 (.node 2 (.node 1 (.leaf 671074284934000000000000000000000000000000)
 (.leaf 501063254783000000000000000000001063254552))
 (.node 1 (.leaf 1043931083)
 (.leaf 1058430283))))
 (.node 4 (.node 2 (.node 1 (.leaf 1052242851)
 (.leaf 611069811454000000000000000000000000000000))
 (.node 1 (.leaf 611053185150000000000000000000001029306895)
 (.leaf 581080413028000000000000000000000000000000)))
 (.node 2 (.node 1 (.leaf 621053742629000000000000000000000000000000)
 (.leaf 1060747867))
 (.node 1 (.leaf 1050751743)
 (.leaf 831069511463000000000000000000000000000000)))))))))
 (.node 128 (.node 64 (.node 32 (.node 16 (.node 8 (.node 4 (.node 2 (.node 1 (.leaf 108295727600000000000000000000)
 (.leaf 103742720400000000000000000000))
 (.node 1 (.leaf 105881204800000000000000000000)
 (.leaf 108767911900000000000000000000)))
 (.node 2 (.node 1 (.leaf 102259171600000000000000000000)
 (.leaf 102826595900000000000000000000))
 (.node 1 (.leaf 1029814335)
 (.leaf 651074754640000000000000000000000000000000))))
 (.node 4 (.node 2 (.node 1 (.leaf 1006841841)
 (.leaf 1009357980))
 (.node 1 (.leaf 1043566175)
 (.leaf 1046497144)))
 (.node 2 (.node 1 (.leaf 1036524243)
 (.leaf 1015930479))
 (.node 1 (.leaf 998557271)
 (.leaf 1040840773)))))
 (.node 8 (.node 4 (.node 2 (.node 1 (.leaf 1023756522)
 (.leaf 1049653806))
 (.node 1 (.leaf 1045427974)
 (.leaf 1012670195)))
 (.node 2 (.node 1 (.leaf 1030290310)
 (.leaf 105427434800000000000000000000))
 (.node 1 (.leaf 105778516500000000000000000000)
 (.leaf 1032990310))))
 (.node 4 (.node 2 (.node 1 (.leaf 661071046593000000000000000000000000000000)
 (.leaf 1053183569))
 (.node 1 (.leaf 1051162894)
 (.leaf 1046590747)))
 (.node 2 (.node 1 (.leaf 801062548465000000000000000000000000000000)
 (.leaf 421065833868000000000000000000000000000000))
 (.node 1 (.leaf 1046188167)
 (.leaf 11054878835000000000010548788350000000000))))))
 (.node 16 (.node 8 (.node 4 (.node 2 (.node 1 (.leaf 1047903801)
 (.leaf 1041573350))
 (.node 1 (.leaf 1046492882)
 (.leaf 107007700900000000000000000000)))
 (.node 2 (.node 1 (.leaf 108132961400000000000000000000)
 (.leaf 105715994500000000000000000000))
 (.node 1 (.leaf 107793881200000000000000000000)
 (.leaf 107642991100000000000000000000))))
 (.node 4 (.node 2 (.node 1 (.leaf 106102690900000000000000000000)
 (.leaf 1003591333))
 (.node 1 (.leaf 1034797951)
 (.leaf 1017132644)))
 (.node 2 (.node 1 (.leaf 1044670667)
 (.leaf 1044848996))
 (.node 1 (.leaf 1029251907)
 (.leaf 993463214)))))
 (.node 8 (.node 4 (.node 2 (.node 1 (.leaf 1022152608)
 (.leaf 1050213279))
 (.node 1 (.leaf 107364208300000000000000000000)
 (.leaf 1029442668)))
 (.node 2 (.node 1 (.leaf 541080184296000000000000000000001048928544)
 (.leaf 5310616572390541076658763000000000000000000000000000000))
 (.node 1 (.leaf 531072713357000000000000000000000000000000)
 (.leaf 911070092973000000000000000000001048451183))))
 (.node 4 (.node 2 (.node 1 (.leaf 1052805603)
 (.leaf 1025468946))
 (.node 1 (.leaf 1059755906)
 (.leaf 1023410856)))
 (.node 2 (.node 1 (.leaf 1049848580)
 (.leaf 981548823))
 (.node 1 (.leaf 1028614377)
 (.leaf 1048437362)))))))
 (.node 32 (.node 16 (.node 8 (.node 4 (.node 2 (.node 1 (.leaf 1131043708361000000000000000000000000000000)
 (.leaf 1041873837))
 (.node 1 (.leaf 1040787118)
 (.leaf 994114994)))
 (.node 2 (.node 1 (.leaf 591069587967000000000000000000000000000000)
 (.leaf 1044932682))
 (.node 1 (.leaf 1035457039)
 (.leaf 1034883750))))
 (.node 4 (.node 2 (.node 1 (.leaf 1025457848)
 (.leaf 1062295136))
 (.node 1 (.leaf 321058208908000000000000000000001062321137)
 (.leaf 5310660342530601078745365000000000000000000001035795241)))
 (.node 2 (.node 1 (.leaf 601087799199000000000000000000000000000000)
 (.leaf 581076592804000000000000000000001049980464))
 (.node 1 (.leaf 1062531048)
 (.leaf 1048633815)))))
 (.node 8 (.node 4 (.node 2 (.node 1 (.leaf 1050297174)
 (.leaf 1008239794))
 (.node 1 (.leaf 1011063138050000000000000000000000000000000)
 (.leaf 701061327337000000000000000000000000000000)))
 (.node 2 (.node 1 (.leaf 108514567500000000000000000000)
 (.leaf 107157143900000000000000000000))
 (.node 1 (.leaf 104893664300000000000000000000)
 (.leaf 1046170985))))
 (.node 4 (.node 2 (.node 1 (.leaf 1021095975)
 (.leaf 581071385393000000000000000000001042829593))
 (.node 1 (.leaf 1021844379)
 (.leaf 1018118536)))
 (.node 2 (.node 1 (.leaf 1022401337)
 (.leaf 1018782754))
 (.node 1 (.leaf 110131528300000000000000000000)
 (.leaf 101472435600000000000000000000))))))
 (.node 16 (.node 8 (.node 4 (.node 2 (.node 1 (.leaf 1040708927)
 (.leaf 1033682454))
 (.node 1 (.leaf 1041835464)
 (.leaf 1044906513)))
 (.node 2 (.node 1 (.leaf 631021187372000000000000000000000000000000)
 (.leaf 511061442194000000000000000000001043762390))
 (.node 1 (.leaf 1057370816)
 (.leaf 6610256997480711025827483000000000000000000001046579086))))
 (.node 4 (.node 2 (.node 1 (.leaf 1058775884)
 (.leaf 651058981440000000000000000000000000000000))
 (.node 1 (.leaf 1044266437)
 (.leaf 791077679846000000000000000000000000000000)))
 (.node 2 (.node 1 (.leaf 1018540798)
 (.leaf 7410605347161001073496895000000000000000000000000000000))
 (.node 1 (.leaf 741073397226000000000000000000000000000000)
 (.leaf 107900970200000000000000000000)))))
 (.node 8 (.node 4 (.node 2 (.node 1 (.leaf 106898573500000000000000000000)
 (.leaf 1025537850))
 (.node 1 (.leaf 1034930210)
 (.leaf 1111047211364000000000000000000001051744655)))
 (.node 2 (.node 1 (.leaf 1008752162)
 (.leaf 1057483168))
 (.node 1 (.leaf 1053138212)
 (.leaf 1056608587))))
 (.node 4 (.node 2 (.node 1 (.leaf 1028991759)
 (.leaf 1049003655))
 (.node 1 (.leaf 331059919266000000000000000000000000000000)
 (.leaf 1063277842)))
 (.node 2 (.node 1 (.leaf 1058330204)
 (.leaf 1062805171))
 (.node 1 (.leaf 1042845531)
 (.leaf 1043512646))))))))
 (.node 64 (.node 32 (.node 16 (.node 8 (.node 4 (.node 2 (.node 1 (.leaf 108924843900000000000000000000)
 (.leaf 107377198100000000000000000000))
 (.node 1 (.leaf 108845158400000000000000000000)
 (.leaf 1023248500)))
 (.node 2 (.node 1 (.leaf 1111033381749000000000000000000000000000000)
 (.leaf 1050555388))
 (.node 1 (.leaf 1044352698)
 (.leaf 1049964088))))
 (.node 4 (.node 2 (.node 1 (.leaf 1060031707)
 (.leaf 1049010301))
 (.node 1 (.leaf 1031967106)
 (.leaf 1063260182)))
 (.node 2 (.node 1 (.leaf 761060764378000000000000000000000000000000)
 (.leaf 107526167200000000000000000000))
 (.node 1 (.leaf 1063380639)
 (.leaf 1016642431)))))
 (.node 8 (.node 4 (.node 2 (.node 1 (.leaf 1023593485)
 (.leaf 1033255749))
 (.node 1 (.leaf 541059815713000000000000000000000000000000)
 (.leaf 781071345720000000000000000000001048778250)))
 (.node 2 (.node 1 (.leaf 1062877191)
 (.leaf 1057075334))
 (.node 1 (.leaf 1034636307)
 (.leaf 1043972052))))
 (.node 4 (.node 2 (.node 1 (.leaf 109128220400000000000000000000)
 (.leaf 105670030000000000000000000000))
 (.node 1 (.leaf 109382299800000000000000000000)
 (.leaf 108691548300000000000000000000)))
 (.node 2 (.node 1 (.leaf 108078477300000000000000000000)
 (.leaf 107869705900000000000000000000))
 (.node 1 (.leaf 102578891700000000000000000000)
 (.leaf 1023122891))))))
 (.node 16 (.node 8 (.node 4 (.node 2 (.node 1 (.leaf 821033661687000000000000000000000000000000)
 (.leaf 1043205133))
 (.node 1 (.leaf 1036611523)
 (.leaf 1031053273786000000000000000000000000000000)))
 (.node 2 (.node 1 (.leaf 701067781459000000000000000000001057069766)
 (.leaf 1068245550))
 (.node 1 (.leaf 601061696542000000000000000000001059204271)
 (.leaf 1055773364))))
 (.node 4 (.node 2 (.node 1 (.leaf 580983185652000000000000000000001035107027)
 (.leaf 581048678411000000000000000000001052404347))
 (.node 1 (.leaf 701069346812000000000000000000001034676332)
 (.leaf 106348708600000000000000000000)))
 (.node 2 (.node 1 (.leaf 106133604600000000001061395576)
 (.leaf 109231667700000000001043474452))
 (.node 1 (.leaf 1025135724)
 (.leaf 681020343737000000000000000000001042316692)))))
 (.node 8 (.node 4 (.node 2 (.node 1 (.leaf 1044726513)
 (.leaf 1040498701))
 (.node 1 (.leaf 1032730791)
 (.leaf 1046614780)))
 (.node 2 (.node 1 (.leaf 1041060009)
 (.leaf 991057319561000000000000000000000000000000))
 (.node 1 (.leaf 1058379262)
 (.leaf 1061033458614000000000000000000000000000000))))
 (.node 4 (.node 2 (.node 1 (.leaf 108483838000000000000000000000)
 (.leaf 109554801000000000000000000000))
 (.node 1 (.leaf 106502334200000000000000000000)
 (.leaf 108198648300000000000000000000)))
 (.node 2 (.node 1 (.leaf 107209539200000000000000000000)
 (.leaf 1038727269))
 (.node 1 (.leaf 1061033948674000000000000000000000000000000)
 (.leaf 1054610644)))))))
 (.node 32 (.node 16 (.node 8 (.node 4 (.node 2 (.node 1 (.leaf 1043631096)
 (.leaf 1033465907))
 (.node 1 (.leaf 1031059786891000000000000000000001023289222)
 (.leaf 1091017467297000000000000000000000000000000)))
 (.node 2 (.node 1 (.leaf 661059788698103710655800000000000000000000)
 (.leaf 1023420584))
 (.node 1 (.leaf 601051120553000000000000000000001051271266)
 (.leaf 601063801852000000000000000000001049844360))))
 (.node 4 (.node 2 (.node 1 (.leaf 761066710667000000000000000000001026299592)
 (.leaf 1053291765))
 (.node 1 (.leaf 1052938386)
 (.leaf 109144969300000000000000000000)))
 (.node 2 (.node 1 (.leaf 997731417)
 (.leaf 1044429704))
 (.node 1 (.leaf 671070659575000000000000000000000000000000)
 (.leaf 731070691952000000000000000000001040965936)))))
 (.node 8 (.node 4 (.node 2 (.node 1 (.leaf 101833271900000000000000000000)
 (.leaf 1035346430))
 (.node 1 (.leaf 108882938600000000000000000000)
 (.leaf 106891778700000000000000000000)))
 (.node 2 (.node 1 (.leaf 108494449500000000000000000000)
 (.leaf 108987292800000000000000000000))
 (.node 1 (.leaf 1032592002)
 (.leaf 1071172641))))
 (.node 4 (.node 2 (.node 1 (.leaf 1057241472)
 (.leaf 571042251293000000000000000000001043405679))
 (.node 1 (.leaf 103027962700000000000000000000)
 (.leaf 1054870409)))
 (.node 2 (.node 1 (.leaf 711059647604000000000000000000000000000000)
 (.leaf 711069507194000000000000000000000000000000))
 (.node 1 (.leaf 1011053883585000000000000000000000000000000)
 (.leaf 1026204494))))))
 (.node 16 (.node 8 (.node 4 (.node 2 (.node 1 (.leaf 1051071997)
 (.leaf 691049459810000000000000000000000000000000))
 (.node 1 (.leaf 975815885)
 (.leaf 108193728400000000000000000000)))
 (.node 2 (.node 1 (.leaf 105681123100000000000000000000)
 (.leaf 1047259894))
 (.node 1 (.leaf 106966781300000000000000000000)
 (.leaf 741071714947000000000000000000000000000000))))
 (.node 4 (.node 2 (.node 1 (.leaf 108235080100000000000000000000)
 (.leaf 1070954601304000000000000000000000000000000))
 (.node 1 (.leaf 1048418085)
 (.leaf 1033014237)))
 (.node 2 (.node 1 (.leaf 881066286619000000000000000000000000000000)
 (.leaf 741053764327106855053400000000001025655923))
 (.node 1 (.leaf 661078250415000000000000000000000000000000)
 (.leaf 105747789000000000001042205457)))))
 (.node 8 (.node 4 (.node 2 (.node 1 (.leaf 1015026577)
 (.leaf 1030381415))
 (.node 1 (.leaf 1039328838)
 (.leaf 1052447420)))
 (.node 2 (.node 1 (.leaf 1050798898)
 (.leaf 681085155831000000000000000000000000000000))
 (.node 1 (.leaf 691075589967000000000000000000000000000000)
 (.leaf 1037218045))))
 (.node 4 (.node 2 (.node 1 (.leaf 104066024100000000000000000000)
 (.leaf 1016354266))
 (.node 1 (.leaf 1041594028)
 (.leaf 1025278615)))
 (.node 2 (.node 1 (.leaf 681058232561000000000000000000001040660929)
 (.leaf 1032121782))
 (.node 1 (.leaf 821072878047000000000000000000000000000000)
 (.leaf 1051874724))))))))))
 (.node 256 (.node 128 (.node 64 (.node 32 (.node 16 (.node 8 (.node 4 (.node 2 (.node 1 (.leaf 1015429586)
 (.leaf 1034931938))
 (.node 1 (.leaf 601078165263000000000000000000001045471257)
 (.leaf 1057084287)))
 (.node 2 (.node 1 (.leaf 1048299382)
 (.leaf 1054415641))
 (.node 1 (.leaf 998887270)
 (.leaf 1022251551))))
 (.node 4 (.node 2 (.node 1 (.leaf 101081638887000000000000000000000000000000)
 (.leaf 1027959700))
 (.node 1 (.leaf 1065787298)
 (.leaf 1022864742)))
 (.node 2 (.node 1 (.leaf 108324282400000000000000000000)
 (.leaf 1042804280))
 (.node 1 (.leaf 109677903900000000000000000000)
 (.leaf 1042223317)))))
 (.node 8 (.node 4 (.node 2 (.node 1 (.leaf 101670890000000000000000000000)
 (.leaf 109236121000000000000000000000))
 (.node 1 (.leaf 11068437261109164258910684372610000000000)
 (.leaf 11068518337000000000010685183370000000000)))
 (.node 2 (.node 1 (.leaf 1001063766735000000000000000000001049435353)
 (.leaf 1038310256))
 (.node 1 (.leaf 1021727214)
 (.leaf 951064241299000000000000000000000000000000))))
 (.node 4 (.node 2 (.node 1 (.leaf 1036571520)
 (.leaf 1056173656))
 (.node 1 (.leaf 1036998861)
 (.leaf 1045853454)))
 (.node 2 (.node 1 (.leaf 1050242731)
 (.leaf 1035480092))
 (.node 1 (.leaf 1037456679)
 (.leaf 1034040431))))))
 (.node 16 (.node 8 (.node 4 (.node 2 (.node 1 (.leaf 101001487895000000000000000000000000000000)
 (.leaf 1064370562))
 (.node 1 (.leaf 1025793485)
 (.leaf 1056896739)))
 (.node 2 (.node 1 (.leaf 1083318268)
 (.leaf 105086548600000000000000000000))
 (.node 1 (.leaf 102972442200000000000000000000)
 (.leaf 1016034859))))
 (.node 4 (.node 2 (.node 1 (.leaf 1024458072)
 (.leaf 621051279316000000000000000000001026944194))
 (.node 1 (.leaf 1042093514)
 (.leaf 1015922491)))
 (.node 2 (.node 1 (.leaf 1023498026)
 (.leaf 851012826913000000000000000000001024948889))
 (.node 1 (.leaf 1039136303)
 (.leaf 1036304708)))))
 (.node 8 (.node 4 (.node 2 (.node 1 (.leaf 1060481516)
 (.leaf 1066462366))
 (.node 1 (.leaf 106449615200000000000000000000)
 (.leaf 108018129700000000000000000000)))
 (.node 2 (.node 1 (.leaf 1053040649)
 (.leaf 1027884729))
 (.node 1 (.leaf 1141059286254000000000000000000000000000000)
 (.leaf 1036278108))))
 (.node 4 (.node 2 (.node 1 (.leaf 1041011589)
 (.leaf 1051917713))
 (.node 1 (.leaf 10110637890571081065591160000000000000000000001007453700)
 (.leaf 10110422219741081042350632000000000000000000001015800860)))
 (.node 2 (.node 1 (.leaf 1003130613)
 (.leaf 1043779503))
 (.node 1 (.leaf 108226450300000000000000000000)
 (.leaf 1036899258)))))))
 (.node 32 (.node 16 (.node 8 (.node 4 (.node 2 (.node 1 (.leaf 1051029563049000000000000000000001021903078)
 (.leaf 1028468047))
 (.node 1 (.leaf 1033049232)
 (.leaf 1049385774)))
 (.node 2 (.node 1 (.leaf 1027795959)
 (.leaf 1048302568))
 (.node 1 (.leaf 691067613054000000000000000000001041209581)
 (.leaf 1044302978))))
 (.node 4 (.node 2 (.node 1 (.leaf 1033010627)
 (.leaf 996311766))
 (.node 1 (.leaf 1007191012)
 (.leaf 1012508550)))
 (.node 2 (.node 1 (.leaf 10010410073011161044587159000000000000000000000000000000)
 (.leaf 1050683022))
 (.node 1 (.leaf 1033053654)
 (.leaf 985426535)))))
 (.node 8 (.node 4 (.node 2 (.node 1 (.leaf 1048823134)
 (.leaf 801041460128000000000000000000000000000000))
 (.node 1 (.leaf 591053283969000000000000000000000000000000)
 (.leaf 1048988670)))
 (.node 2 (.node 1 (.leaf 108764277500000000000000000000)
 (.leaf 1000427249))
 (.node 1 (.leaf 1023477056)
 (.leaf 521039941233000000000000000000000000000000))))
 (.node 4 (.node 2 (.node 1 (.leaf 1004850938)
 (.leaf 1056718650))
 (.node 1 (.leaf 1054520886)
 (.leaf 5810682840361031069536160000000000000000000000000000000)))
 (.node 2 (.node 1 (.leaf 1061024007473000000000000000000000000000000)
 (.leaf 1061049412562000000000000000000000000000000))
 (.node 1 (.leaf 1030690575)
 (.leaf 1029407835))))))
 (.node 16 (.node 8 (.node 4 (.node 2 (.node 1 (.leaf 901030859424000000000000000000001051267651)
 (.leaf 1036740962))
 (.node 1 (.leaf 951058338310000000000000000000001038061319)
 (.leaf 1027480614)))
 (.node 2 (.node 1 (.leaf 107960806100000000000000000000)
 (.leaf 821063933939000000000000000000000000000000))
 (.node 1 (.leaf 1022953837)
 (.leaf 1049287559))))
 (.node 4 (.node 2 (.node 1 (.leaf 109143177300000000000000000000)
 (.leaf 1045778376))
 (.node 1 (.leaf 1058324812)
 (.leaf 1038329145)))
 (.node 2 (.node 1 (.leaf 601057990195000000000000000000001050132586)
 (.leaf 921046772866000000000000000000000000000000))
 (.node 1 (.leaf 571060287717000000000000000000001035505870)
 (.leaf 751026686649000000000000000000001006598826)))))
 (.node 8 (.node 4 (.node 2 (.node 1 (.leaf 751032483939000000000000000000000000000000)
 (.leaf 1071042902840000000000000000000000000000000))
 (.node 1 (.leaf 1071062213321000000000000000000001018630527)
 (.leaf 1040539960)))
 (.node 2 (.node 1 (.leaf 108764170600000000000000000000)
 (.leaf 1016018116))
 (.node 1 (.leaf 1057579415)
 (.leaf 1039490229))))
 (.node 4 (.node 2 (.node 1 (.leaf 108255231600000000000000000000)
 (.leaf 1042554843))
 (.node 1 (.leaf 1121041336694000000000000000000000000000000)
 (.leaf 1050132468)))
 (.node 2 (.node 1 (.leaf 1048662081)
 (.leaf 1022440794))
 (.node 1 (.leaf 1031555915)
 (.leaf 1008921276))))))))
 (.node 64 (.node 32 (.node 16 (.node 8 (.node 4 (.node 2 (.node 1 (.leaf 1033224591)
 (.leaf 1060009339))
 (.node 1 (.leaf 1017616379)
 (.leaf 108063012900000000000000000000)))
 (.node 2 (.node 1 (.leaf 301047853977000000000000000000000000000000)
 (.leaf 601069707114000000000000000000000000000000))
 (.node 1 (.leaf 1044382714)
 (.leaf 1057010484))))
 (.node 4 (.node 2 (.node 1 (.leaf 1016064017)
 (.leaf 1046145733))
 (.node 1 (.leaf 951675664)
 (.leaf 1059197224)))
 (.node 2 (.node 1 (.leaf 1040314578)
 (.leaf 1045302432))
 (.node 1 (.leaf 1021010420535000000000000000000000000000000)
 (.leaf 109806522200000000000000000000)))))
 (.node 8 (.node 4 (.node 2 (.node 1 (.leaf 1091065373571000000000000000000000000000000)
 (.leaf 661067160623000000000000000000000000000000))
 (.node 1 (.leaf 731071109798000000000000000000000000000000)
 (.leaf 1016487723)))
 (.node 2 (.node 1 (.leaf 751063350272000000000000000000001018642634)
 (.leaf 1032639882))
 (.node 1 (.leaf 1045746415)
 (.leaf 1021258449))))
 (.node 4 (.node 2 (.node 1 (.leaf 1045060264)
 (.leaf 1012516766))
 (.node 1 (.leaf 1001537297)
 (.leaf 108979072000000000000000000000)))
 (.node 2 (.node 1 (.leaf 1046655957)
 (.leaf 109074428500000000000000000000))
 (.node 1 (.leaf 11057434638000000000000000000000000000000)
 (.leaf 601082135184000000000000000000000000000000))))))
 (.node 16 (.node 8 (.node 4 (.node 2 (.node 1 (.leaf 1031709900)
 (.leaf 1055540836))
 (.node 1 (.leaf 1061077195861000000000000000000000000000000)
 (.leaf 531062812671000000000000000000000000000000)))
 (.node 2 (.node 1 (.leaf 551074806319000000000000000000000000000000)
 (.leaf 1043805634))
 (.node 1 (.leaf 1021055369560000000000000000000000000000000)
 (.leaf 107656618400000000001037251905))))
 (.node 4 (.node 2 (.node 1 (.leaf 1061064749953000000000000000000000000000000)
 (.leaf 661040769415000000000000000000000000000000))
 (.node 1 (.leaf 921068603475000000000000000000000000000000)
 (.leaf 1051052987235000000000000000000000000000000)))
 (.node 2 (.node 1 (.leaf 998513889)
 (.leaf 1031622277))
 (.node 1 (.leaf 1032552581)
 (.leaf 601043759339000000000000000000000000000000)))))
 (.node 8 (.node 4 (.node 2 (.node 1 (.leaf 1036930433)
 (.leaf 1027238573))
 (.node 1 (.leaf 1043758998)
 (.leaf 711082178846000000000000000000000000000000)))
 (.node 2 (.node 1 (.leaf 701058124354000000000000000000000000000000)
 (.leaf 701048642689000000000000000000000000000000))
 (.node 1 (.leaf 107320445000000000000000000000)
 (.leaf 106301286100000000000000000000))))
 (.node 4 (.node 2 (.node 1 (.leaf 1034857806)
 (.leaf 1034003896))
 (.node 1 (.leaf 1049961257)
 (.leaf 1050026984)))
 (.node 2 (.node 1 (.leaf 1024589771)
 (.leaf 1036093403))
 (.node 1 (.leaf 1027971418)
 (.leaf 601079043202000000000000000000001034154760)))))))
 (.node 32 (.node 16 (.node 8 (.node 4 (.node 2 (.node 1 (.leaf 1042459991)
 (.leaf 1027207931))
 (.node 1 (.leaf 1005615542)
 (.leaf 1035427927)))
 (.node 2 (.node 1 (.leaf 1024333968)
 (.leaf 1035948781))
 (.node 1 (.leaf 701033639079000000000000000000000000000000)
 (.leaf 701072312302000000000000000000000000000000))))
 (.node 4 (.node 2 (.node 1 (.leaf 1039032285)
 (.leaf 1039220917))
 (.node 1 (.leaf 1044673066)
 (.leaf 1041267165)))
 (.node 2 (.node 1 (.leaf 1042062455)
 (.leaf 1042157286))
 (.node 1 (.leaf 781043977286000000000000000000001054980560)
 (.leaf 781061873637000000000000000000000000000000)))))
 (.node 8 (.node 4 (.node 2 (.node 1 (.leaf 1063957477)
 (.leaf 621049276153000000000000000000000000000000))
 (.node 1 (.leaf 1141042376716000000000000000000000000000000)
 (.leaf 1131049155885000000000000000000001050766700)))
 (.node 2 (.node 1 (.leaf 1091045499235000000000000000000000000000000)
 (.leaf 1037874970))
 (.node 1 (.leaf 1050781580)
 (.leaf 871065629713000000000000000000000000000000))))
 (.node 4 (.node 2 (.node 1 (.leaf 1044512955)
 (.leaf 1035210940))
 (.node 1 (.leaf 1045056786)
 (.leaf 731054205928000000000000000000000000000000)))
 (.node 2 (.node 1 (.leaf 1034651501)
 (.leaf 701051148196000000000000000000000000000000))
 (.node 1 (.leaf 1054065694)
 (.leaf 1036171257))))))
 (.node 16 (.node 8 (.node 4 (.node 2 (.node 1 (.leaf 1015116533)
 (.leaf 1071021667875000000000000000000000000000000))
 (.node 1 (.leaf 1045071864)
 (.leaf 1046801784)))
 (.node 2 (.node 1 (.leaf 1004286846)
 (.leaf 1004759667))
 (.node 1 (.leaf 1020622746)
 (.leaf 1061053965133000000000000000000000000000000))))
 (.node 4 (.node 2 (.node 1 (.leaf 751023843214000000000000000000000000000000)
 (.leaf 1038550872))
 (.node 1 (.leaf 988282229)
 (.leaf 1039580556)))
 (.node 2 (.node 1 (.leaf 1058889745)
 (.leaf 1065263393))
 (.node 1 (.leaf 621041489953000000000000000000000000000000)
 (.leaf 1131057002827000000000000000000000000000000)))))
 (.node 8 (.node 4 (.node 2 (.node 1 (.leaf 1081037281979000000000000000000000000000000)
 (.leaf 1051961316))
 (.node 1 (.leaf 601070770620000000000000000000001031981610)
 (.leaf 1042696207)))
 (.node 2 (.node 1 (.leaf 591040459981000000000000000000000000000000)
 (.leaf 591058933988000000000000000000000000000000))
 (.node 1 (.leaf 1030560888)
 (.leaf 996599992))))
 (.node 4 (.node 2 (.node 1 (.leaf 7610688251890941082785979000000000000000000000000000000)
 (.leaf 109948478400000000000000000000))
 (.node 1 (.leaf 721069027536000000000000000000000000000000)
 (.leaf 1039446282)))
 (.node 2 (.node 1 (.leaf 1042390476)
 (.leaf 1035130068))
 (.node 1 (.leaf 571053416884000000000000000000000000000000)
 (.leaf 1121046286768000000000000000000000000000000)))))))))
 (.node 128 (.node 64 (.node 32 (.node 16 (.node 8 (.node 4 (.node 2 (.node 1 (.leaf 1034134144)
 (.leaf 601059001713000000000000000000000000000000))
 (.node 1 (.leaf 1033308447)
 (.leaf 1033627461)))
 (.node 2 (.node 1 (.leaf 1031837252)
 (.leaf 1000345353))
 (.node 1 (.leaf 106566535600000000000000000000)
 (.leaf 1060338184))))
 (.node 4 (.node 2 (.node 1 (.leaf 106928973800000000000000000000)
 (.leaf 107771911500000000000000000000))
 (.node 1 (.leaf 107892514500000000000000000000)
 (.leaf 651050616837000000000000000000000000000000)))
 (.node 2 (.node 1 (.leaf 1042173033)
 (.leaf 1038588478))
 (.node 1 (.leaf 1010918116)
 (.leaf 1046912305)))))
 (.node 8 (.node 4 (.node 2 (.node 1 (.leaf 1055237531)
 (.leaf 1060994073404000000000000000000001050128865))
 (.node 1 (.leaf 1036929127)
 (.leaf 1002285452)))
 (.node 2 (.node 1 (.leaf 941054092563000000000000000000000000000000)
 (.leaf 106405157200000000000000000000))
 (.node 1 (.leaf 100831779000000000000000000000)
 (.leaf 691052919437000000000000000000000000000000))))
 (.node 4 (.node 2 (.node 1 (.leaf 1064332879)
 (.leaf 701068550685000000000000000000001068550793))
 (.node 1 (.leaf 791063071906000000000000000000001067101132)
 (.leaf 959912724)))
 (.node 2 (.node 1 (.leaf 1021958783)
 (.leaf 1062161327))
 (.node 1 (.leaf 1030783510)
 (.leaf 1045029663))))))
 (.node 16 (.node 8 (.node 4 (.node 2 (.node 1 (.leaf 1044228896)
 (.leaf 1006711969))
 (.node 1 (.leaf 1057086928)
 (.leaf 1000003173)))
 (.node 2 (.node 1 (.leaf 1111020172863000000000000000000000000000000)
 (.leaf 951067952034000000000000000000000000000000))
 (.node 1 (.leaf 1063578268)
 (.leaf 1052547810))))
 (.node 4 (.node 2 (.node 1 (.leaf 1065792542)
 (.leaf 1065582421))
 (.node 1 (.leaf 1051187741)
 (.leaf 1062804788)))
 (.node 2 (.node 1 (.leaf 1046076933)
 (.leaf 7110755144311151077762819000000000000000000000000000000))
 (.node 1 (.leaf 1030971525)
 (.leaf 1077486590)))))
 (.node 8 (.node 4 (.node 2 (.node 1 (.leaf 11090005689000000000010900056891045465006)
 (.leaf 11077138020000000000010771380201045075428))
 (.node 1 (.leaf 1006741545)
 (.leaf 1014678325)))
 (.node 2 (.node 1 (.leaf 1072095665)
 (.leaf 110343052300000000001050637119))
 (.node 1 (.leaf 108554914600000000000000000000)
 (.leaf 7110628654131151073866666000000000000000000000000000000))))
 (.node 4 (.node 2 (.node 1 (.leaf 1043919508)
 (.leaf 1034344226))
 (.node 1 (.leaf 1009002753)
 (.leaf 993556731)))
 (.node 2 (.node 1 (.leaf 1047467991)
 (.leaf 1026699366))
 (.node 1 (.leaf 1034581377)
 (.leaf 1032925870)))))))
 (.node 32 (.node 16 (.node 8 (.node 4 (.node 2 (.node 1 (.leaf 1007593478)
 (.leaf 1038250273))
 (.node 1 (.leaf 1051976449)
 (.leaf 841055657483000000000000000000001040466842)))
 (.node 2 (.node 1 (.leaf 1068918442)
 (.leaf 721049724206000000000000000000001033336660))
 (.node 1 (.leaf 761078713473000000000000000000000000000000)
 (.leaf 771079242080000000000000000000000000000000))))
 (.node 4 (.node 2 (.node 1 (.leaf 1059424360)
 (.leaf 1011088953353000000000000000000000000000000))
 (.node 1 (.leaf 104188309900000000000000000000)
 (.leaf 1053441892)))
 (.node 2 (.node 1 (.leaf 951000119931000000000000000000001053645184)
 (.leaf 7010736409361011086271814000000000000000000000000000000))
 (.node 1 (.leaf 791044150230000000000000000000000000000000)
 (.leaf 1045101866)))))
 (.node 8 (.node 4 (.node 2 (.node 1 (.leaf 1009089739)
 (.leaf 107094355200000000000000000000))
 (.node 1 (.leaf 841055121953000000000000000000000000000000)
 (.leaf 271060548205000000000000000000001051914782)))
 (.node 2 (.node 1 (.leaf 271040591214000000000000000000001063894413)
 (.leaf 1016721470))
 (.node 1 (.leaf 1065820490)
 (.leaf 1067732189))))
 (.node 4 (.node 2 (.node 1 (.leaf 1045247729)
 (.leaf 1049713144))
 (.node 1 (.leaf 951045206029000000000000000000001036780731)
 (.leaf 951061781304000000000000000000001051327892)))
 (.node 2 (.node 1 (.leaf 1035777728)
 (.leaf 791060019513000000000000000000000000000000))
 (.node 1 (.leaf 861038347980000000000000000000000000000000)
 (.leaf 99323843900000000000000000000))))))
 (.node 16 (.node 8 (.node 4 (.node 2 (.node 1 (.leaf 108580804000000000000000000000)
 (.leaf 1044849922))
 (.node 1 (.leaf 1042637701)
 (.leaf 271043251003000000000000000000001006661586)))
 (.node 2 (.node 1 (.leaf 271062145191000000000000000000001064442175)
 (.leaf 1037634610))
 (.node 1 (.leaf 1050292979)
 (.leaf 771080660507000000000000000000000000000000))))
 (.node 4 (.node 2 (.node 1 (.leaf 601074252937000000000000000000000000000000)
 (.leaf 1111018508397000000000000000000000000000000))
 (.node 1 (.leaf 1100995816976000000000000000000000000000000)
 (.leaf 1048690835)))
 (.node 2 (.node 1 (.leaf 1019459666)
 (.leaf 1032398046))
 (.node 1 (.leaf 911083240246000000000000000000000000000000)
 (.leaf 641073372030000000000000000000001057280568)))))
 (.node 8 (.node 4 (.node 2 (.node 1 (.leaf 1044448638)
 (.leaf 1032147853))
 (.node 1 (.leaf 1058286095)
 (.leaf 1042187626)))
 (.node 2 (.node 1 (.leaf 1045893286)
 (.leaf 1044278086))
 (.node 1 (.leaf 105814298900000000000000000000)
 (.leaf 641061782138000000000000000000000000000000))))
 (.node 4 (.node 2 (.node 1 (.leaf 1060708195)
 (.leaf 1057786286))
 (.node 1 (.leaf 1040507881)
 (.leaf 1054133201)))
 (.node 2 (.node 1 (.leaf 731067890599000000000000000000000000000000)
 (.leaf 11075756029000000000010757560290000000000))
 (.node 1 (.leaf 1044787485)
 (.leaf 611050734341000000000000000000000000000000))))))))
 (.node 64 (.node 32 (.node 16 (.node 8 (.node 4 (.node 2 (.node 1 (.leaf 107895328900000000000000000000)
 (.leaf 1027265457))
 (.node 1 (.leaf 1045628519)
 (.leaf 108913842200000000000000000000)))
 (.node 2 (.node 1 (.leaf 1040367497)
 (.leaf 1041873357))
 (.node 1 (.leaf 1034512421)
 (.leaf 1007702395))))
 (.node 4 (.node 2 (.node 1 (.leaf 1047576357)
 (.leaf 691085188896000000000000000000000000000000))
 (.node 1 (.leaf 691068523478000000000000000000001057513602)
 (.leaf 1049655566)))
 (.node 2 (.node 1 (.leaf 1010870169)
 (.leaf 611032507480000000000000000000000000000000))
 (.node 1 (.leaf 109434026100000000000000000000)
 (.leaf 108303950500000000000000000000)))))
 (.node 8 (.node 4 (.node 2 (.node 1 (.leaf 741049202794000000000000000000000000000000)
 (.leaf 108401296100000000000000000000))
 (.node 1 (.leaf 1063977175)
 (.leaf 1044718964)))
 (.node 2 (.node 1 (.leaf 1031571269)
 (.leaf 1041340685))
 (.node 1 (.leaf 1141057613662000000000000000000001042483098)
 (.leaf 7410406459910801050702080000000000000000000000000000000))))
 (.node 4 (.node 2 (.node 1 (.leaf 108372315600000000000000000000)
 (.leaf 109472456400000000000000000000))
 (.node 1 (.leaf 1029597809)
 (.leaf 731065665595000000000000000000000000000000)))
 (.node 2 (.node 1 (.leaf 1057124501)
 (.leaf 1014171679))
 (.node 1 (.leaf 741067651303000000000000000000001015182687)
 (.leaf 1038816480))))))
 (.node 16 (.node 8 (.node 4 (.node 2 (.node 1 (.leaf 108840444000000000000000000000)
 (.leaf 110108438700000000000000000000))
 (.node 1 (.leaf 1023695259)
 (.leaf 871074189075000000000000000000001058989053)))
 (.node 2 (.node 1 (.leaf 871063681463000000000000000000001032541596)
 (.leaf 1048359565))
 (.node 1 (.leaf 851065736887000000000000000000000000000000)
 (.leaf 781041312181000000000000000000000000000000))))
 (.node 4 (.node 2 (.node 1 (.leaf 1151073342707000000000000000000001040824119)
 (.leaf 1131058747138000000000000000000001043410122))
 (.node 1 (.leaf 681038430567000000000000000000000000000000)
 (.leaf 108241476400000000000000000000)))
 (.node 2 (.node 1 (.leaf 1042682741)
 (.leaf 891038915599000000000000000000000000000000))
 (.node 1 (.leaf 851069629732000000000000000000000000000000)
 (.leaf 7810304871010851085505949000000000000000000000000000000)))))
 (.node 8 (.node 4 (.node 2 (.node 1 (.leaf 1067741879)
 (.leaf 1065504976))
 (.node 1 (.leaf 711076950700000000000000000000000000000000)
 (.leaf 1061053919543000000000000000000000000000000)))
 (.node 2 (.node 1 (.leaf 1045059402)
 (.leaf 681054515115106418862600000000000000000000))
 (.node 1 (.leaf 108241396700000000000000000000)
 (.leaf 1021211767))))
 (.node 4 (.node 2 (.node 1 (.leaf 1023993387)
 (.leaf 1009377542))
 (.node 1 (.leaf 1042554154)
 (.leaf 651077418260000000000000000000001054230973)))
 (.node 2 (.node 1 (.leaf 651049016612000000000000000000001045101603)
 (.leaf 1054524036))
 (.node 1 (.leaf 1053137278)
 (.leaf 1081032935654000000000000000000000000000000)))))))
 (.node 32 (.node 16 (.node 8 (.node 4 (.node 2 (.node 1 (.leaf 1052121958)
 (.leaf 106771477700000000000000000000))
 (.node 1 (.leaf 110671408700000000001009358123)
 (.leaf 1048812428)))
 (.node 2 (.node 1 (.leaf 731058100498000000000000000000000000000000)
 (.leaf 1050946849))
 (.node 1 (.leaf 106526904500000000000000000000)
 (.leaf 1027505328))))
 (.node 4 (.node 2 (.node 1 (.leaf 1037906845)
 (.leaf 1033696983))
 (.node 1 (.leaf 110322704700000000000000000000)
 (.leaf 107952400800000000000000000000)))
 (.node 2 (.node 1 (.leaf 1161027992877000000000000000000000000000000)
 (.leaf 651063305073000000000000000000001044475441))
 (.node 1 (.leaf 53098980310106510601367780931071644391000000000000000000001045882584)
 (.leaf 1081056032537000000000000000000000000000000)))))
 (.node 8 (.node 4 (.node 2 (.node 1 (.leaf 1066820437)
 (.leaf 107132196200000000000000000000))
 (.node 1 (.leaf 107521830300000000000000000000)
 (.leaf 1040260473)))
 (.node 2 (.node 1 (.leaf 1065649739)
 (.leaf 1034918112))
 (.node 1 (.leaf 108720069500000000000000000000)
 (.leaf 110472944700000000000000000000))))
 (.node 4 (.node 2 (.node 1 (.leaf 1033255637)
 (.leaf 1020148373))
 (.node 1 (.leaf 108396741100000000000000000000)
 (.leaf 1171081294778000000000000000000000000000000)))
 (.node 2 (.node 1 (.leaf 1065000606)
 (.leaf 965740328))
 (.node 1 (.leaf 976987160)
 (.leaf 108117467600000000000000000000))))))
 (.node 16 (.node 8 (.node 4 (.node 2 (.node 1 (.leaf 831052031302000000000000000000000000000000)
 (.leaf 1024246924))
 (.node 1 (.leaf 661070412963000000000000000000000000000000)
 (.leaf 1051484423)))
 (.node 2 (.node 1 (.leaf 1067825679)
 (.leaf 108191023100000000000000000000))
 (.node 1 (.leaf 109294754200000000000000000000)
 (.leaf 1034128278))))
 (.node 4 (.node 2 (.node 1 (.leaf 1036588924)
 (.leaf 1028753147))
 (.node 1 (.leaf 1027045333)
 (.leaf 1058135750)))
 (.node 2 (.node 1 (.leaf 1066158614)
 (.leaf 1044228209))
 (.node 1 (.leaf 106497490700000000000000000000)
 (.leaf 1063353209)))))
 (.node 8 (.node 4 (.node 2 (.node 1 (.leaf 101324108900000000000000000000)
 (.leaf 950964605202000000000000000000000000000000))
 (.node 1 (.leaf 1071065785725000000000000000000000985720438)
 (.leaf 103409129000000000000000000000)))
 (.node 2 (.node 1 (.leaf 109884924200000000000000000000)
 (.leaf 1171035391555000000000000000000000000000000))
 (.node 1 (.leaf 921062319541000000000000000000001035989937)
 (.leaf 661041620309000000000000000000000000000000))))
 (.node 4 (.node 2 (.node 1 (.leaf 100343655900000000000000000000)
 (.leaf 741071015688000000000000000000001042684526))
 (.node 1 (.leaf 1091016651915000000000000000000001048585295)
 (.leaf 1049012937)))
 (.node 2 (.node 1 (.leaf 110200954600000000000000000000)
 (.leaf 108381312400000000001055650303))
 (.node 1 (.leaf 1042987002)
 (.leaf 1057537021)))))))))))
 (.node 512 (.node 256 (.node 128 (.node 64 (.node 32 (.node 16 (.node 8 (.node 4 (.node 2 (.node 1 (.leaf 1011064425338000000000000000000000000000000)
 (.leaf 781069913863000000000000000000000000000000))
 (.node 1 (.leaf 107518000900000000000000000000)
 (.leaf 1044710533)))
 (.node 2 (.node 1 (.leaf 1070659328)
 (.leaf 1043749943))
 (.node 1 (.leaf 1060051371)
 (.leaf 991063239199000000000000000000000000000000))))
 (.node 4 (.node 2 (.node 1 (.leaf 1042227790)
 (.leaf 1038615637))
 (.node 1 (.leaf 1056040930)
 (.leaf 681067978210000000000000000000000000000000)))
 (.node 2 (.node 1 (.leaf 881062171576000000000000000000000000000000)
 (.leaf 1028421458))
 (.node 1 (.leaf 1050221156)
 (.leaf 1121056308935000000000000000000000000000000)))))
 (.node 8 (.node 4 (.node 2 (.node 1 (.leaf 781067645844000000000000000000000000000000)
 (.leaf 105176397300000000000000000000))
 (.node 1 (.leaf 102536500400000000000000000000)
 (.leaf 107170020500000000000000000000)))
 (.node 2 (.node 1 (.leaf 1052181598)
 (.leaf 1045241658))
 (.node 1 (.leaf 1034135963)
 (.leaf 821050707184000000000000000000000000000000))))
 (.node 4 (.node 2 (.node 1 (.leaf 1053149052)
 (.leaf 991044496759000000000000000000000000000000))
 (.node 1 (.leaf 681081099087000000000000000000001032684574)
 (.leaf 1034143122)))
 (.node 2 (.node 1 (.leaf 1046599942)
 (.leaf 881071058038000000000000000000000000000000))
 (.node 1 (.leaf 11074200683000000000010742006830000000000)
 (.leaf 1055542555))))))
 (.node 16 (.node 8 (.node 4 (.node 2 (.node 1 (.leaf 1050479923)
 (.leaf 1013910725))
 (.node 1 (.leaf 1059157527)
 (.leaf 1049726802)))
 (.node 2 (.node 1 (.leaf 1063579952)
 (.leaf 1051695519))
 (.node 1 (.leaf 831073160863000000000000000000000000000000)
 (.leaf 6810620298080831062211532000000000000000000000000000000))))
 (.node 4 (.node 2 (.node 1 (.leaf 681064875856000000000000000000000000000000)
 (.leaf 1032848677))
 (.node 1 (.leaf 1018622230)
 (.leaf 1026486702)))
 (.node 2 (.node 1 (.leaf 1040261863)
 (.leaf 741061698979103212367100000000000000000000))
 (.node 1 (.leaf 741056980113000000000000000000001055992896)
 (.leaf 109162515100000000000000000000)))))
 (.node 8 (.node 4 (.node 2 (.node 1 (.leaf 104975473400000000000000000000)
 (.leaf 106394621200000000000000000000))
 (.node 1 (.leaf 108425455300000000000000000000)
 (.leaf 1014822957)))
 (.node 2 (.node 1 (.leaf 381065842463000000000000000000000000000000)
 (.leaf 381093801141000000000000000000000000000000))
 (.node 1 (.leaf 751090550078000000000000000000000000000000)
 (.leaf 751050087560000000000000000000000000000000))))
 (.node 4 (.node 2 (.node 1 (.leaf 881039439975000000000000000000000000000000)
 (.leaf 881069955102000000000000000000000000000000))
 (.node 1 (.leaf 1074159059)
 (.leaf 1057253801)))
 (.node 2 (.node 1 (.leaf 1040912234)
 (.leaf 1048768732))
 (.node 1 (.leaf 1037702011)
 (.leaf 1020506388)))))))
 (.node 32 (.node 16 (.node 8 (.node 4 (.node 2 (.node 1 (.leaf 1015837733)
 (.leaf 1018916654))
 (.node 1 (.leaf 731074315135000000000000000000000000000000)
 (.leaf 1037308997)))
 (.node 2 (.node 1 (.leaf 221060379044107382474500000000001060379039)
 (.leaf 871080863552000000000000000000000000000000))
 (.node 1 (.leaf 107821509100000000000000000000)
 (.leaf 107601882800000000000000000000))))
 (.node 4 (.node 2 (.node 1 (.leaf 1047112119)
 (.leaf 1064896593))
 (.node 1 (.leaf 1131058822987000000000000000000000000000000)
 (.leaf 998878741)))
 (.node 2 (.node 1 (.leaf 5810541650560861064016457000000000000000000000000000000)
 (.leaf 871065513543000000000000000000000000000000))
 (.node 1 (.leaf 1009609674)
 (.leaf 1020526590)))))
 (.node 8 (.node 4 (.node 2 (.node 1 (.leaf 1044977689)
 (.leaf 601009033010108586963300000000000000000000))
 (.node 1 (.leaf 1059825490)
 (.leaf 11059188100000000000000000000001060408707)))
 (.node 2 (.node 1 (.leaf 861089110031000000000000000000000000000000)
 (.leaf 651058678317000000000000000000000000000000))
 (.node 1 (.leaf 1052198008)
 (.leaf 1039024816))))
 (.node 4 (.node 2 (.node 1 (.leaf 1055689806)
 (.leaf 1041070327496000000000000000000000000000000))
 (.node 1 (.leaf 106286757100000000000000000000)
 (.leaf 831070277663000000000000000000000000000000)))
 (.node 2 (.node 1 (.leaf 110021464600000000000000000000)
 (.leaf 109407402700000000000000000000))
 (.node 1 (.leaf 1151068161390000000000000000000000000000000)
 (.leaf 861094745583000000000000000000000000000000))))))
 (.node 16 (.node 8 (.node 4 (.node 2 (.node 1 (.leaf 721082858718000000000000000000000000000000)
 (.leaf 651061756782000000000000000000000000000000))
 (.node 1 (.leaf 1161052540786000000000000000000000000000000)
 (.leaf 107868443400000000000000000000)))
 (.node 2 (.node 1 (.leaf 108460725200000000000000000000)
 (.leaf 891068089493000000000000000000000000000000))
 (.node 1 (.leaf 861065652993000000000000000000001039047773)
 (.leaf 561068334109000000000000000000000000000000))))
 (.node 4 (.node 2 (.node 1 (.leaf 1055421457)
 (.leaf 1037500321))
 (.node 1 (.leaf 1015563819)
 (.leaf 711047536223000000000000000000000000000000)))
 (.node 2 (.node 1 (.leaf 108334378100000000000000000000)
 (.leaf 1010946210))
 (.node 1 (.leaf 761070965317000000000000000000001047224212)
 (.leaf 651079256700000000000000000000000000000000)))))
 (.node 8 (.node 4 (.node 2 (.node 1 (.leaf 106042215700000000001026222787)
 (.leaf 881084925383000000000000000000000000000000))
 (.node 1 (.leaf 711050770244000000000000000000000000000000)
 (.leaf 106892626000000000000000000000)))
 (.node 2 (.node 1 (.leaf 691070878190000000000000000000000000000000)
 (.leaf 1060065681))
 (.node 1 (.leaf 1031024209)
 (.leaf 741054502954000000000000000000000000000000))))
 (.node 4 (.node 2 (.node 1 (.leaf 741086352905000000000000000000000000000000)
 (.leaf 106712379900000000000000000000))
 (.node 1 (.leaf 109200733600000000000000000000)
 (.leaf 1052663119)))
 (.node 2 (.node 1 (.leaf 781074087113000000000000000000000000000000)
 (.leaf 621042123981000000000000000000001049827200))
 (.node 1 (.leaf 760975943938000000000000000000000000000000)
 (.leaf 1027193710))))))))
 (.node 64 (.node 32 (.node 16 (.node 8 (.node 4 (.node 2 (.node 1 (.leaf 1008142827)
 (.leaf 6210578251550891062034821000000000000000000001041750752))
 (.node 1 (.leaf 651091925075000000000000000000000000000000)
 (.leaf 941030525452000000000000000000000000000000)))
 (.node 2 (.node 1 (.leaf 107239595600000000000000000000)
 (.leaf 105235953100000000000000000000))
 (.node 1 (.leaf 1049160851)
 (.leaf 851082347407000000000000000000000000000000))))
 (.node 4 (.node 2 (.node 1 (.leaf 109879366800000000000000000000)
 (.leaf 651043498287000000000000000000000000000000))
 (.node 1 (.leaf 110558524200000000000000000000)
 (.leaf 1030846640)))
 (.node 2 (.node 1 (.leaf 841043502981000000000000000000000000000000)
 (.leaf 110554177900000000000000000000))
 (.node 1 (.leaf 110221784500000000000000000000)
 (.leaf 1151078576546000000000000000000000000000000)))))
 (.node 8 (.node 4 (.node 2 (.node 1 (.leaf 108526833800000000000000000000)
 (.leaf 109132143100000000000000000000))
 (.node 1 (.leaf 108464223300000000000000000000)
 (.leaf 1151046701686000000000000000000000000000000)))
 (.node 2 (.node 1 (.leaf 109680168800000000000000000000)
 (.leaf 1111007647347000000000000000000000000000000))
 (.node 1 (.leaf 1045597262)
 (.leaf 1049063029))))
 (.node 4 (.node 2 (.node 1 (.leaf 851023104523000000000000000000000000000000)
 (.leaf 1052122257))
 (.node 1 (.leaf 11082880755000000000010828807550000000000)
 (.leaf 11104151770000000000011041517700000000000)))
 (.node 2 (.node 1 (.leaf 11109797140000000000011097971400000000000)
 (.leaf 109325938900000000000000000000))
 (.node 1 (.leaf 11090254985000000000010902549850000000000)
 (.leaf 1041791427))))))
 (.node 16 (.node 8 (.node 4 (.node 2 (.node 1 (.leaf 871076586112000000000000000000000000000000)
 (.leaf 108556758000000000000000000000))
 (.node 1 (.leaf 109649602800000000000000000000)
 (.leaf 108426501800000000000000000000)))
 (.node 2 (.node 1 (.leaf 1035146544)
 (.leaf 105140114900000000000000000000))
 (.node 1 (.leaf 103708374100000000000000000000)
 (.leaf 1024676919))))
 (.node 4 (.node 2 (.node 1 (.leaf 871056032772000000000000000000000000000000)
 (.leaf 870969813916000000000000000000000000000000))
 (.node 1 (.leaf 106868399700000000000000000000)
 (.leaf 105313765800000000000000000000)))
 (.node 2 (.node 1 (.leaf 107714579500000000000000000000)
 (.leaf 103848524300000000000000000000))
 (.node 1 (.leaf 871075871479000000000000000000000000000000)
 (.leaf 107228363200000000000000000000)))))
 (.node 8 (.node 4 (.node 2 (.node 1 (.leaf 105862719700000000000000000000)
 (.leaf 11075769159000000000010757691590000000000))
 (.node 1 (.leaf 11107996331000000000011079963310000000000)
 (.leaf 11113759910000000000011137599100000000000)))
 (.node 2 (.node 1 (.leaf 11118682273000000000011186822730000000000)
 (.leaf 109233151400000000000000000000))
 (.node 1 (.leaf 102583852400000000000000000000)
 (.leaf 107191184900000000000000000000))))
 (.node 4 (.node 2 (.node 1 (.leaf 106839274400000000000000000000)
 (.leaf 106740397900000000000000000000))
 (.node 1 (.leaf 108077051300000000000000000000)
 (.leaf 107552205400000000000000000000)))
 (.node 2 (.node 1 (.leaf 11111994249000000000011119942490000000000)
 (.leaf 107495485900000000000000000000))
 (.node 1 (.leaf 107547809800000000000000000000)
 (.leaf 105397021000000000000000000000)))))))
 (.node 32 (.node 16 (.node 8 (.node 4 (.node 2 (.node 1 (.leaf 104887382900000000000000000000)
 (.leaf 106848485100000000000000000000))
 (.node 1 (.leaf 11100928532000000000011009285320000000000)
 (.leaf 11072353390000000000010723533900000000000)))
 (.node 2 (.node 1 (.leaf 106179599300000000000000000000)
 (.leaf 109138851900000000000000000000))
 (.node 1 (.leaf 106547669600000000000000000000)
 (.leaf 107477383200000000000000000000))))
 (.node 4 (.node 2 (.node 1 (.leaf 108724609900000000000000000000)
 (.leaf 1041407641))
 (.node 1 (.leaf 109098818300000000000000000000)
 (.leaf 107954317600000000000000000000)))
 (.node 2 (.node 1 (.leaf 731049261801000000000000000000000000000000)
 (.leaf 1027272316))
 (.node 1 (.leaf 106033518400000000000000000000)
 (.leaf 106300173800000000000000000000)))))
 (.node 8 (.node 4 (.node 2 (.node 1 (.leaf 1052055742)
 (.leaf 107051439100000000000000000000))
 (.node 1 (.leaf 107322793800000000000000000000)
 (.leaf 109747267200000000000000000000)))
 (.node 2 (.node 1 (.leaf 731067991199000000000000000000000000000000)
 (.leaf 106690846400000000000000000000))
 (.node 1 (.leaf 841091457316000000000000000000000000000000)
 (.leaf 1047324780))))
 (.node 4 (.node 2 (.node 1 (.leaf 581034550434000000000000000000000000000000)
 (.leaf 1040429620))
 (.node 1 (.leaf 109583479600000000000000000000)
 (.leaf 104061440600000000000000000000)))
 (.node 2 (.node 1 (.leaf 1033887441)
 (.leaf 110468823800000000000000000000))
 (.node 1 (.leaf 108219124900000000000000000000)
 (.leaf 104060131900000000000000000000))))))
 (.node 16 (.node 8 (.node 4 (.node 2 (.node 1 (.leaf 1021057936761000000000000000000000000000000)
 (.leaf 1057375454))
 (.node 1 (.leaf 1008527450)
 (.leaf 1034891300)))
 (.node 2 (.node 1 (.leaf 1044924448)
 (.leaf 1036428576))
 (.node 1 (.leaf 110850956300000000000000000000)
 (.leaf 107560648600000000000000000000))))
 (.node 4 (.node 2 (.node 1 (.leaf 1053839188)
 (.leaf 1048565186))
 (.node 1 (.leaf 1111074019377000000000000000000000000000000)
 (.leaf 1018682154)))
 (.node 2 (.node 1 (.leaf 1040283600)
 (.leaf 801080528548000000000000000000000000000000))
 (.node 1 (.leaf 1151065088793000000000000000000000000000000)
 (.leaf 109466123000000000000000000000)))))
 (.node 8 (.node 4 (.node 2 (.node 1 (.leaf 108339994300000000000000000000)
 (.leaf 1020599480))
 (.node 1 (.leaf 1018405676)
 (.leaf 109066545300000000000000000000)))
 (.node 2 (.node 1 (.leaf 109579201400000000000000000000)
 (.leaf 891066714856000000000000000000000000000000))
 (.node 1 (.leaf 1025273527)
 (.leaf 1037622635))))
 (.node 4 (.node 2 (.node 1 (.leaf 1019121049)
 (.leaf 1014475912))
 (.node 1 (.leaf 108409665900000000000000000000)
 (.leaf 111087030100000000000000000000)))
 (.node 2 (.node 1 (.leaf 1053421769)
 (.leaf 821074727414000000000000000000000000000000))
 (.node 1 (.leaf 1038887593)
 (.leaf 107630592800000000000000000000)))))))))
 (.node 128 (.node 64 (.node 32 (.node 16 (.node 8 (.node 4 (.node 2 (.node 1 (.leaf 107601807300000000000000000000)
 (.leaf 109128575900000000000000000000))
 (.node 1 (.leaf 101916948600000000000000000000)
 (.leaf 821019688558000000000000000000000000000000)))
 (.node 2 (.node 1 (.leaf 1037127594)
 (.leaf 1052707956))
 (.node 1 (.leaf 1029313304)
 (.leaf 1073492035))))
 (.node 4 (.node 2 (.node 1 (.leaf 1022237382)
 (.leaf 109944504300000000000000000000))
 (.node 1 (.leaf 110091048100000000000000000000)
 (.leaf 110073536800000000000000000000)))
 (.node 2 (.node 1 (.leaf 861033747697000000000000000000000000000000)
 (.leaf 940996939474000000000000000000000000000000))
 (.node 1 (.leaf 751030653492000000000000000000000000000000)
 (.leaf 107583339800000000000000000000)))))
 (.node 8 (.node 4 (.node 2 (.node 1 (.leaf 110435589200000000000000000000)
 (.leaf 103330294900000000000000000000))
 (.node 1 (.leaf 1025252810)
 (.leaf 1021019649762000000000000000000000000000000)))
 (.node 2 (.node 1 (.leaf 1058720668)
 (.leaf 941036267293000000000000000000000000000000))
 (.node 1 (.leaf 106740926400000000000000000000)
 (.leaf 103341484600000000000000000000))))
 (.node 4 (.node 2 (.node 1 (.leaf 1051522827)
 (.leaf 1028263629))
 (.node 1 (.leaf 1021040849436000000000000000000000000000000)
 (.leaf 531060226274000000000000000000000000000000)))
 (.node 2 (.node 1 (.leaf 105733897500000000000000000000)
 (.leaf 11073297408000000000010732974080000000000))
 (.node 1 (.leaf 1021048446301000000000000000000000000000000)
 (.leaf 301066936241000000000000000000000000000000))))))
 (.node 16 (.node 8 (.node 4 (.node 2 (.node 1 (.leaf 105792416400000000000000000000)
 (.leaf 110300904800000000000000000000))
 (.node 1 (.leaf 1003443010)
 (.leaf 1047314081)))
 (.node 2 (.node 1 (.leaf 301034042001000000000000000000000000000000)
 (.leaf 104573649000000000000000000000))
 (.node 1 (.leaf 111316961900000000000000000000)
 (.leaf 1033643422))))
 (.node 4 (.node 2 (.node 1 (.leaf 1024203961)
 (.leaf 111280361300000000000000000000))
 (.node 1 (.leaf 108222184700000000000000000000)
 (.leaf 861029791659000000000000000000000000000000)))
 (.node 2 (.node 1 (.leaf 111158453900000000000000000000)
 (.leaf 1058215676))
 (.node 1 (.leaf 1057516898)
 (.leaf 108895911500000000000000000000)))))
 (.node 8 (.node 4 (.node 2 (.node 1 (.leaf 110786746800000000000000000000)
 (.leaf 1049889037))
 (.node 1 (.leaf 1011245136)
 (.leaf 108431117600000000000000000000)))
 (.node 2 (.node 1 (.leaf 109411114700000000000000000000)
 (.leaf 981060275207000000000000000000000000000000))
 (.node 1 (.leaf 1035964694)
 (.leaf 1047601610))))
 (.node 4 (.node 2 (.node 1 (.leaf 1024442615)
 (.leaf 1031987883))
 (.node 1 (.leaf 974317575)
 (.leaf 1037489983)))
 (.node 2 (.node 1 (.leaf 1051008651723000000000000000000000000000000)
 (.leaf 987887538))
 (.node 1 (.leaf 1020394426)
 (.leaf 740964909804000000000000000000000000000000)))))))
 (.node 32 (.node 16 (.node 8 (.node 4 (.node 2 (.node 1 (.leaf 951074396227000000000000000000000000000000)
 (.leaf 109089841500000000000000000000))
 (.node 1 (.leaf 1055919117)
 (.leaf 601067014642000000000000000000001044130631)))
 (.node 2 (.node 1 (.leaf 781091658237000000000000000000000000000000)
 (.leaf 1051442581))
 (.node 1 (.leaf 1051418639)
 (.leaf 1069615711))))
 (.node 4 (.node 2 (.node 1 (.leaf 106859423900000000000000000000)
 (.leaf 1061067937587000000000000000000000000000000))
 (.node 1 (.leaf 1041031497)
 (.leaf 591100382163000000000000000000000000000000)))
 (.node 2 (.node 1 (.leaf 591051972189000000000000000000001030649047)
 (.leaf 1024118531))
 (.node 1 (.leaf 1027719778)
 (.leaf 1041228067)))))
 (.node 8 (.node 4 (.node 2 (.node 1 (.leaf 1051486130)
 (.leaf 591092978426000000000000000000000000000000))
 (.node 1 (.leaf 1004760465)
 (.leaf 1042588424)))
 (.node 2 (.node 1 (.leaf 104067185100000000001039341886)
 (.leaf 1065933165))
 (.node 1 (.leaf 971038976556000000000000000000000000000000)
 (.leaf 1049313505))))
 (.node 4 (.node 2 (.node 1 (.leaf 591038712730000000000000000000000000000000)
 (.leaf 1024446145))
 (.node 1 (.leaf 1007166256)
 (.leaf 107451030400000000001026844175)))
 (.node 2 (.node 1 (.leaf 105866234500000000000000000000)
 (.leaf 1053124991))
 (.node 1 (.leaf 1022792468)
 (.leaf 1018395135))))))
 (.node 16 (.node 8 (.node 4 (.node 2 (.node 1 (.leaf 108708774300000000000000000000)
 (.leaf 800988612212000000000000000000000000000000))
 (.node 1 (.leaf 8210618785550981063868201000000000000000000000000000000)
 (.leaf 1024984623)))
 (.node 2 (.node 1 (.leaf 1049044074)
 (.leaf 1038321891))
 (.node 1 (.leaf 108252230600000000000000000000)
 (.leaf 781043302168000000000000000000000000000000))))
 (.node 4 (.node 2 (.node 1 (.leaf 981026775542000000000000000000000000000000)
 (.leaf 941041487388000000000000000000000000000000))
 (.node 1 (.leaf 995861400)
 (.leaf 1037241180)))
 (.node 2 (.node 1 (.leaf 1026743639)
 (.leaf 990012083))
 (.node 1 (.leaf 591059162309000000000000000000000000000000)
 (.leaf 591079795035000000000000000000000000000000)))))
 (.node 8 (.node 4 (.node 2 (.node 1 (.leaf 1062914151)
 (.leaf 1031994863))
 (.node 1 (.leaf 1069192964)
 (.leaf 731026741393000000000000000000000000000000)))
 (.node 2 (.node 1 (.leaf 741026918926000000000000000000000000000000)
 (.leaf 741042410062000000000000000000001058008108))
 (.node 1 (.leaf 1043050286)
 (.leaf 1039254487))))
 (.node 4 (.node 2 (.node 1 (.leaf 1050661918)
 (.leaf 1045370514))
 (.node 1 (.leaf 1039161187)
 (.leaf 1024722383)))
 (.node 2 (.node 1 (.leaf 6810380894390731046110652000000000000000000000000000000)
 (.leaf 731077534338000000000000000000000000000000))
 (.node 1 (.leaf 791058355241000000000000000000000000000000)
 (.leaf 107261573700000000000000000000))))))))
 (.node 64 (.node 32 (.node 16 (.node 8 (.node 4 (.node 2 (.node 1 (.leaf 1041109022)
 (.leaf 1050118946))
 (.node 1 (.leaf 1044102501)
 (.leaf 1048853935)))
 (.node 2 (.node 1 (.leaf 1019223329)
 (.leaf 8210347655370991039467908000000000000000000000000000000))
 (.node 1 (.leaf 751035143245000000000000000000000000000000)
 (.leaf 631032439338000000000000000000000000000000))))
 (.node 4 (.node 2 (.node 1 (.leaf 1042806158)
 (.leaf 1036030155))
 (.node 1 (.leaf 1059749226)
 (.leaf 1049212100)))
 (.node 2 (.node 1 (.leaf 1058281312)
 (.leaf 1026731334))
 (.node 1 (.leaf 991066435947000000000000000000000000000000)
 (.leaf 751069937068000000000000000000000000000000)))))
 (.node 8 (.node 4 (.node 2 (.node 1 (.leaf 631079891291000000000000000000000000000000)
 (.leaf 1040227421))
 (.node 1 (.leaf 1051733492)
 (.leaf 1048336134)))
 (.node 2 (.node 1 (.leaf 1049848205)
 (.leaf 751057983488000000000000000000000000000000))
 (.node 1 (.leaf 660999175760000000000000000000000000000000)
 (.leaf 601008094757000000000000000000000000000000))))
 (.node 4 (.node 2 (.node 1 (.leaf 1041831710)
 (.leaf 998592645))
 (.node 1 (.leaf 1030339981)
 (.leaf 108385611500000000000000000000)))
 (.node 2 (.node 1 (.leaf 631034527701000000000000000000000000000000)
 (.leaf 811068413588000000000000000000000000000000))
 (.node 1 (.leaf 581017859564000000000000000000000000000000)
 (.leaf 581060419667000000000000000000000000000000))))))
 (.node 16 (.node 8 (.node 4 (.node 2 (.node 1 (.leaf 108822062400000000001064191147)
 (.leaf 1015191309))
 (.node 1 (.leaf 1018968887)
 (.leaf 1052367293)))
 (.node 2 (.node 1 (.leaf 1026371663)
 (.leaf 761045553082000000000000000000000000000000))
 (.node 1 (.leaf 1045979990)
 (.leaf 7110657854390811065787649000000000000000000001058065174))))
 (.node 4 (.node 2 (.node 1 (.leaf 751065389762000000000000000000000000000000)
 (.leaf 1061025489))
 (.node 1 (.leaf 1042826819)
 (.leaf 711044448636000000000000000000000000000000)))
 (.node 2 (.node 1 (.leaf 1066164559)
 (.leaf 281077033393000000000000000000001062596278))
 (.node 1 (.leaf 281055623488000000000000000000001062659991)
 (.leaf 751051970415000000000000000000000000000000)))))
 (.node 8 (.node 4 (.node 2 (.node 1 (.leaf 751057670792000000000000000000000000000000)
 (.leaf 1055248331))
 (.node 1 (.leaf 1036410073)
 (.leaf 1036077561)))
 (.node 2 (.node 1 (.leaf 1023292711)
 (.leaf 11080895907000000000000000000000000000000))
 (.node 1 (.leaf 105384199900000000000000000000)
 (.leaf 1038177726))))
 (.node 4 (.node 2 (.node 1 (.leaf 1061759169)
 (.leaf 107135048400000000000000000000))
 (.node 1 (.leaf 107694862100000000000000000000)
 (.leaf 721018470740000000000000000000000000000000)))
 (.node 2 (.node 1 (.leaf 831074056661000000000000000000000000000000)
 (.leaf 990140684))
 (.node 1 (.leaf 1024663465)
 (.leaf 1038171113)))))))
 (.node 32 (.node 16 (.node 8 (.node 4 (.node 2 (.node 1 (.leaf 1027160114)
 (.leaf 107871085800000000000000000000))
 (.node 1 (.leaf 1029039841)
 (.leaf 751067493549000000000000000000000000000000)))
 (.node 2 (.node 1 (.leaf 721070477992000000000000000000000000000000)
 (.leaf 991066814570000000000000000000000000000000))
 (.node 1 (.leaf 1036080616)
 (.leaf 1050397416))))
 (.node 4 (.node 2 (.node 1 (.leaf 1011323349)
 (.leaf 986576218))
 (.node 1 (.leaf 1022575198)
 (.leaf 1011754330)))
 (.node 2 (.node 1 (.leaf 1054601476)
 (.leaf 801063093142000000000000000000001060196037))
 (.node 1 (.leaf 801037972704000000000000000000000000000000)
 (.leaf 1047782521)))))
 (.node 8 (.node 4 (.node 2 (.node 1 (.leaf 1029270708)
 (.leaf 1040470173))
 (.node 1 (.leaf 1048004772)
 (.leaf 1058842656)))
 (.node 2 (.node 1 (.leaf 1047698461)
 (.leaf 801031801826000000000000000000000000000000))
 (.node 1 (.leaf 1034034290)
 (.leaf 1027108570))))
 (.node 4 (.node 2 (.node 1 (.leaf 1024850069)
 (.leaf 1034849880))
 (.node 1 (.leaf 1011749592)
 (.leaf 1042214875)))
 (.node 2 (.node 1 (.leaf 1034459862)
 (.leaf 1054458929))
 (.node 1 (.leaf 1056914652)
 (.leaf 999786436))))))
 (.node 16 (.node 8 (.node 4 (.node 2 (.node 1 (.leaf 851051102492000000000000000000001052964768)
 (.leaf 851042250470000000000000000000001050491922))
 (.node 1 (.leaf 1061429452)
 (.leaf 1017086097)))
 (.node 2 (.node 1 (.leaf 671062579829000000000000000000000000000000)
 (.leaf 1022921054))
 (.node 1 (.leaf 1054971800)
 (.leaf 1019143114))))
 (.node 4 (.node 2 (.node 1 (.leaf 851064648064000000000000000000000000000000)
 (.leaf 1035132401))
 (.node 1 (.leaf 851057185576000000000000000000001047630995)
 (.leaf 1042924832)))
 (.node 2 (.node 1 (.leaf 941057243227000000000000000000000000000000)
 (.leaf 941086977299000000000000000000000000000000))
 (.node 1 (.leaf 1042875878)
 (.leaf 841041807088000000000000000000000000000000)))))
 (.node 8 (.node 4 (.node 2 (.node 1 (.leaf 1043736083)
 (.leaf 1019859421))
 (.node 1 (.leaf 1000539492)
 (.leaf 1046276876)))
 (.node 2 (.node 1 (.leaf 851072523530000000000000000000000998602873)
 (.leaf 1057166323))
 (.node 1 (.leaf 1051317027)
 (.leaf 1050635661))))
 (.node 4 (.node 2 (.node 1 (.leaf 106007059100000000000000000000)
 (.leaf 103538243800000000000000000000))
 (.node 1 (.leaf 1030862342)
 (.leaf 1008934471)))
 (.node 2 (.node 1 (.leaf 851001504564000000000000000000000000000000)
 (.leaf 851047184486000000000000000000001055919658))
 (.node 1 (.leaf 1053433822)
 (.leaf 1014325508))))))))))
 (.node 256 (.node 128 (.node 64 (.node 32 (.node 16 (.node 8 (.node 4 (.node 2 (.node 1 (.leaf 1043804808)
 (.leaf 1052074733))
 (.node 1 (.leaf 9710662117141021073527352000000000000000000000000000000)
 (.leaf 1042805379)))
 (.node 2 (.node 1 (.leaf 1065275727)
 (.leaf 1015297917))
 (.node 1 (.leaf 108328690600000000000000000000)
 (.leaf 999386659))))
 (.node 4 (.node 2 (.node 1 (.leaf 1056864677)
 (.leaf 1041370727))
 (.node 1 (.leaf 108752489400000000000000000000)
 (.leaf 1034392954)))
 (.node 2 (.node 1 (.leaf 1031882307)
 (.leaf 671049509007000000000000000000000000000000))
 (.node 1 (.leaf 1039548881)
 (.leaf 1054189623)))))
 (.node 8 (.node 4 (.node 2 (.node 1 (.leaf 1046800000)
 (.leaf 984435120))
 (.node 1 (.leaf 1001899023)
 (.leaf 1020464668)))
 (.node 2 (.node 1 (.leaf 1024541199)
 (.leaf 1030763376))
 (.node 1 (.leaf 1045289394)
 (.leaf 10910375793681151057618787000000000000000000001023666176))))
 (.node 4 (.node 2 (.node 1 (.leaf 1062928184)
 (.leaf 1029566365))
 (.node 1 (.leaf 1002101918)
 (.leaf 1025479891)))
 (.node 2 (.node 1 (.leaf 1057553349)
 (.leaf 1024384358))
 (.node 1 (.leaf 1034075198)
 (.leaf 361057048777000000000000000000001055351279))))))
 (.node 16 (.node 8 (.node 4 (.node 2 (.node 1 (.leaf 1017250674)
 (.leaf 1041553104))
 (.node 1 (.leaf 1053752341)
 (.leaf 1028932486)))
 (.node 2 (.node 1 (.leaf 107875498200000000000000000000)
 (.leaf 1056635887))
 (.node 1 (.leaf 821052024796000000000000000000000000000000)
 (.leaf 1017219477))))
 (.node 4 (.node 2 (.node 1 (.leaf 1032627477)
 (.leaf 1038697211))
 (.node 1 (.leaf 1052003889)
 (.leaf 1058696011)))
 (.node 2 (.node 1 (.leaf 106667249200000000000000000000)
 (.leaf 1047657669))
 (.node 1 (.leaf 110075455700000000000000000000)
 (.leaf 1057956974)))))
 (.node 8 (.node 4 (.node 2 (.node 1 (.leaf 1041622132)
 (.leaf 1016882541))
 (.node 1 (.leaf 1014617820)
 (.leaf 1015314072)))
 (.node 2 (.node 1 (.leaf 1040298682)
 (.leaf 1054541271))
 (.node 1 (.leaf 1050116072)
 (.leaf 107171262000000000000000000000))))
 (.node 4 (.node 2 (.node 1 (.leaf 1043038997)
 (.leaf 1027871997))
 (.node 1 (.leaf 541076250605000000000000000000000000000000)
 (.leaf 1045606761)))
 (.node 2 (.node 1 (.leaf 601068302546000000000000000000000000000000)
 (.leaf 108511256100000000000000000000))
 (.node 1 (.leaf 1047437968)
 (.leaf 1069634105)))))))
 (.node 32 (.node 16 (.node 8 (.node 4 (.node 2 (.node 1 (.leaf 1016436803)
 (.leaf 995051161))
 (.node 1 (.leaf 1010758409)
 (.leaf 710994186625000000000000000000000000000000)))
 (.node 2 (.node 1 (.leaf 601066730885000000000000000000000000000000)
 (.leaf 1065456778))
 (.node 1 (.leaf 1040714654)
 (.leaf 1034093199))))
 (.node 4 (.node 2 (.node 1 (.leaf 101836010000000000000000000000)
 (.leaf 1029266109))
 (.node 1 (.leaf 401076989332000000000000000000001036040277)
 (.leaf 561043979741000000000000000000001018736916)))
 (.node 2 (.node 1 (.leaf 1030933165)
 (.leaf 1059232153))
 (.node 1 (.leaf 611045924470000000000000000000000000000000)
 (.leaf 681062879839000000000000000000001041257573)))))
 (.node 8 (.node 4 (.node 2 (.node 1 (.leaf 581051431905000000000000000000001046437033)
 (.leaf 999833189))
 (.node 1 (.leaf 1028345872)
 (.leaf 571064273479000000000000000000000000000000)))
 (.node 2 (.node 1 (.leaf 571064562889000000000000000000000000000000)
 (.leaf 982016773))
 (.node 1 (.leaf 1040582781)
 (.leaf 581085281989000000000000000000000000000000))))
 (.node 4 (.node 2 (.node 1 (.leaf 1053499331)
 (.leaf 1024805065))
 (.node 1 (.leaf 1042584473)
 (.leaf 1038461791)))
 (.node 2 (.node 1 (.leaf 1035764289)
 (.leaf 791070352334000000000000000000000000000000))
 (.node 1 (.leaf 108073993600000000001023188374)
 (.leaf 108315732300000000000000000000))))))
 (.node 16 (.node 8 (.node 4 (.node 2 (.node 1 (.leaf 1073846431)
 (.leaf 1049914402))
 (.node 1 (.leaf 1052063770)
 (.leaf 1051573353)))
 (.node 2 (.node 1 (.leaf 1018370474)
 (.leaf 551054878654000000000000000000000000000000))
 (.node 1 (.leaf 1022496448)
 (.leaf 1043687969))))
 (.node 4 (.node 2 (.node 1 (.leaf 1051221316)
 (.leaf 831065854701000000000000000000000000000000))
 (.node 1 (.leaf 1057128334)
 (.leaf 107627010900000000000000000000)))
 (.node 2 (.node 1 (.leaf 108358564600000000000000000000)
 (.leaf 1041034702372000000000000000000000000000000))
 (.node 1 (.leaf 771079575384000000000000000000000000000000)
 (.leaf 109145488400000000000000000000)))))
 (.node 8 (.node 4 (.node 2 (.node 1 (.leaf 1028765051)
 (.leaf 1057758411))
 (.node 1 (.leaf 1006465232)
 (.leaf 105763321400000000000000000000)))
 (.node 2 (.node 1 (.leaf 731083886329000000000000000000000000000000)
 (.leaf 995503967))
 (.node 1 (.leaf 751044241993000000000000000000001060163683)
 (.leaf 106794588300000000000000000000))))
 (.node 4 (.node 2 (.node 1 (.leaf 108055077300000000000000000000)
 (.leaf 731060569583000000000000000000000000000000))
 (.node 1 (.leaf 931040489270000000000000000000001057395934)
 (.leaf 109241870300000000000000000000)))
 (.node 2 (.node 1 (.leaf 109163509200000000000000000000)
 (.leaf 110823363100000000000000000000))
 (.node 1 (.leaf 108958524100000000000000000000)
 (.leaf 108063709200000000000000000000))))))))
 (.node 64 (.node 32 (.node 16 (.node 8 (.node 4 (.node 2 (.node 1 (.leaf 1034362808)
 (.leaf 811066805252000000000000000000001051348241))
 (.node 1 (.leaf 1034148940)
 (.leaf 821091566466000000000000000000000000000000)))
 (.node 2 (.node 1 (.leaf 901074943835000000000000000000000000000000)
 (.leaf 661068654902000000000000000000001048887624))
 (.node 1 (.leaf 821074774569000000000000000000001058228451)
 (.leaf 761050227595000000000000000000000000000000))))
 (.node 4 (.node 2 (.node 1 (.leaf 761048204097000000000000000000000000000000)
 (.leaf 741100013294000000000000000000000000000000))
 (.node 1 (.leaf 741069517907000000000000000000000000000000)
 (.leaf 107357405200000000000000000000)))
 (.node 2 (.node 1 (.leaf 106735675100000000000000000000)
 (.leaf 106391168400000000000000000000))
 (.node 1 (.leaf 11077912659000000000010779126590000000000)
 (.leaf 11080427422108125801710804274220000000000)))))
 (.node 8 (.node 4 (.node 2 (.node 1 (.leaf 105789822700000000000000000000)
 (.leaf 107970557900000000000000000000))
 (.node 1 (.leaf 109089237500000000000000000000)
 (.leaf 11082100618108269483910821006180000000000)))
 (.node 2 (.node 1 (.leaf 108232972400000000000000000000)
 (.leaf 11063682665000000000010636826650000000000))
 (.node 1 (.leaf 108312781700000000000000000000)
 (.leaf 105956157000000000000000000000))))
 (.node 4 (.node 2 (.node 1 (.leaf 1030476846)
 (.leaf 109700595100000000000000000000))
 (.node 1 (.leaf 109964165100000000000000000000)
 (.leaf 11053500932000000000010535009321063230347)))
 (.node 2 (.node 1 (.leaf 11097322909000000000010973229091061344483)
 (.leaf 107638239000000000000000000000))
 (.node 1 (.leaf 999576928)
 (.leaf 1072712853))))))
 (.node 16 (.node 8 (.node 4 (.node 2 (.node 1 (.leaf 1066774040)
 (.leaf 107672909100000000000000000000))
 (.node 1 (.leaf 109027560300000000000000000000)
 (.leaf 106424870500000000000000000000)))
 (.node 2 (.node 1 (.leaf 106718780500000000000000000000)
 (.leaf 106656159500000000000000000000))
 (.node 1 (.leaf 108381973000000000000000000000)
 (.leaf 108405918300000000000000000000))))
 (.node 4 (.node 2 (.node 1 (.leaf 108352059200000000000000000000)
 (.leaf 108797288800000000000000000000))
 (.node 1 (.leaf 108333107200000000000000000000)
 (.leaf 104233460700000000000000000000)))
 (.node 2 (.node 1 (.leaf 108415103800000000000000000000)
 (.leaf 109159387200000000000000000000))
 (.node 1 (.leaf 105728627800000000000000000000)
 (.leaf 107127230200000000000000000000)))))
 (.node 8 (.node 4 (.node 2 (.node 1 (.leaf 109134697500000000000000000000)
 (.leaf 105912799600000000000000000000))
 (.node 1 (.leaf 108442087800000000000000000000)
 (.leaf 107425055100000000000000000000)))
 (.node 2 (.node 1 (.leaf 102261179500000000000000000000)
 (.leaf 109520732800000000000000000000))
 (.node 1 (.leaf 108405087800000000000000000000)
 (.leaf 112001299300000000000000000000))))
 (.node 4 (.node 2 (.node 1 (.leaf 108327700800000000000000000000)
 (.leaf 107505183100000000000000000000))
 (.node 1 (.leaf 109365805700000000000000000000)
 (.leaf 109825679700000000000000000000)))
 (.node 2 (.node 1 (.leaf 105813642900000000000000000000)
 (.leaf 106762610900000000000000000000))
 (.node 1 (.leaf 108697474800000000000000000000)
 (.leaf 107071630500000000000000000000)))))))
 (.node 32 (.node 16 (.node 8 (.node 4 (.node 2 (.node 1 (.leaf 110420049300000000000000000000)
 (.leaf 106726909000000000000000000000))
 (.node 1 (.leaf 109061630600000000000000000000)
 (.leaf 110517834200000000000000000000)))
 (.node 2 (.node 1 (.leaf 105178866900000000000000000000)
 (.leaf 107268720800000000000000000000))
 (.node 1 (.leaf 108034642700000000000000000000)
 (.leaf 109490261200000000000000000000))))
 (.node 4 (.node 2 (.node 1 (.leaf 108486616700000000000000000000)
 (.leaf 109422984600000000000000000000))
 (.node 1 (.leaf 109099925600000000000000000000)
 (.leaf 108386047800000000000000000000)))
 (.node 2 (.node 1 (.leaf 104992005600000000000000000000)
 (.leaf 108260101200000000000000000000))
 (.node 1 (.leaf 106620994500000000000000000000)
 (.leaf 109053877400000000000000000000)))))
 (.node 8 (.node 4 (.node 2 (.node 1 (.leaf 109357689700000000000000000000)
 (.leaf 106963711000000000000000000000))
 (.node 1 (.leaf 107873921100000000000000000000)
 (.leaf 108010726800000000000000000000)))
 (.node 2 (.node 1 (.leaf 109871502500000000000000000000)
 (.leaf 110136294100000000000000000000))
 (.node 1 (.leaf 108064728400000000000000000000)
 (.leaf 110454877700000000000000000000))))
 (.node 4 (.node 2 (.node 1 (.leaf 107895865700000000000000000000)
 (.leaf 110470118800000000000000000000))
 (.node 1 (.leaf 109928450600000000000000000000)
 (.leaf 601075630219000000000000000000000000000000)))
 (.node 2 (.node 1 (.leaf 107096452400000000000000000000)
 (.leaf 109253450800000000000000000000))
 (.node 1 (.leaf 108787874700000000000000000000)
 (.leaf 109267805800000000000000000000))))))
 (.node 16 (.node 8 (.node 4 (.node 2 (.node 1 (.leaf 671085074940000000000000000000000000000000)
 (.leaf 11068079317000000000010680793170000000000))
 (.node 1 (.leaf 108999613600000000000000000000)
 (.leaf 109020157300000000000000000000)))
 (.node 2 (.node 1 (.leaf 109871429100000000000000000000)
 (.leaf 109267176700000000000000000000))
 (.node 1 (.leaf 109194876300000000000000000000)
 (.leaf 108255672000000000000000000000))))
 (.node 4 (.node 2 (.node 1 (.leaf 11103236713000000000011032367130000000000)
 (.leaf 109893580200000000000000000000))
 (.node 1 (.leaf 110903487400000000000000000000)
 (.leaf 103336125300000000000000000000)))
 (.node 2 (.node 1 (.leaf 107689631800000000000000000000)
 (.leaf 109682465200000000000000000000))
 (.node 1 (.leaf 11057893344000000000010578933440000000000)
 (.leaf 11083563672000000000010835636720000000000)))))
 (.node 8 (.node 4 (.node 2 (.node 1 (.leaf 891089453239000000000000000000000000000000)
 (.leaf 108260329800000000000000000000))
 (.node 1 (.leaf 108264605900000000000000000000)
 (.leaf 111530045600000000000000000000)))
 (.node 2 (.node 1 (.leaf 109683136300000000000000000000)
 (.leaf 109312695300000000000000000000))
 (.node 1 (.leaf 101135924900000000000000000000)
 (.leaf 108585346400000000000000000000))))
 (.node 4 (.node 2 (.node 1 (.leaf 851068031538000000000000000000000000000000)
 (.leaf 11089386386000000000010893863860000000000))
 (.node 1 (.leaf 106896384100000000000000000000)
 (.leaf 109352646100000000000000000000)))
 (.node 2 (.node 1 (.leaf 110598066000000000000000000000)
 (.leaf 106444585400000000000000000000))
 (.node 1 (.leaf 109028055200000000000000000000)
 (.leaf 109849241200000000000000000000)))))))))
 (.node 128 (.node 64 (.node 32 (.node 16 (.node 8 (.node 4 (.node 2 (.node 1 (.leaf 109725530200000000000000000000)
 (.leaf 110790610800000000000000000000))
 (.node 1 (.leaf 109599669600000000000000000000)
 (.leaf 109592591700000000000000000000)))
 (.node 2 (.node 1 (.leaf 108765303000000000000000000000)
 (.leaf 671062167873000000000000000000000000000000))
 (.node 1 (.leaf 741060424876000000000000000000000000000000)
 (.leaf 741073289289103663605800000000000000000000))))
 (.node 4 (.node 2 (.node 1 (.leaf 103154940700000000000000000000)
 (.leaf 102946057700000000000000000000))
 (.node 1 (.leaf 108104729500000000000000000000)
 (.leaf 105552347900000000000000000000)))
 (.node 2 (.node 1 (.leaf 102975448700000000000000000000)
 (.leaf 107052856800000000000000000000))
 (.node 1 (.leaf 110119925800000000000000000000)
 (.leaf 107941764000000000000000000000)))))
 (.node 8 (.node 4 (.node 2 (.node 1 (.leaf 631080856566000000000000000000000000000000)
 (.leaf 109059461100000000000000000000))
 (.node 1 (.leaf 108462644100000000000000000000)
 (.leaf 108787541200000000000000000000)))
 (.node 2 (.node 1 (.leaf 111809019200000000000000000000)
 (.leaf 110555960400000000000000000000))
 (.node 1 (.leaf 107842950400000000000000000000)
 (.leaf 107441257700000000000000000000))))
 (.node 4 (.node 2 (.node 1 (.leaf 108214200800000000000000000000)
 (.leaf 109292332000000000000000000000))
 (.node 1 (.leaf 108297575200000000000000000000)
 (.leaf 5010789062280571082554028000000000000000000000000000000)))
 (.node 2 (.node 1 (.leaf 105714159100000000000000000000)
 (.leaf 108821525600000000000000000000))
 (.node 1 (.leaf 109357574400000000000000000000)
 (.leaf 106662484500000000000000000000))))))
 (.node 16 (.node 8 (.node 4 (.node 2 (.node 1 (.leaf 108336179600000000000000000000)
 (.leaf 109577995600000000000000000000))
 (.node 1 (.leaf 101739249700000000000000000000)
 (.leaf 108809588600000000000000000000)))
 (.node 2 (.node 1 (.leaf 110896540500000000000000000000)
 (.leaf 107494328200000000000000000000))
 (.node 1 (.leaf 104689311100000000000000000000)
 (.leaf 108219731000000000000000000000))))
 (.node 4 (.node 2 (.node 1 (.leaf 108085960000000000000000000000)
 (.leaf 108219097700000000000000000000))
 (.node 1 (.leaf 105820486400000000000000000000)
 (.leaf 110014942400000000000000000000)))
 (.node 2 (.node 1 (.leaf 106723587100000000000000000000)
 (.leaf 109164956200000000000000000000))
 (.node 1 (.leaf 105994343600000000000000000000)
 (.leaf 108356356300000000000000000000)))))
 (.node 8 (.node 4 (.node 2 (.node 1 (.leaf 107361423300000000000000000000)
 (.leaf 109070960800000000000000000000))
 (.node 1 (.leaf 109931245100000000000000000000)
 (.leaf 103896815800000000000000000000)))
 (.node 2 (.node 1 (.leaf 110805694500000000000000000000)
 (.leaf 361075400304108803573900000000000000000000))
 (.node 1 (.leaf 108491459000000000000000000000)
 (.leaf 561095895655000000000000000000000000000000))))
 (.node 4 (.node 2 (.node 1 (.leaf 108956246600000000000000000000)
 (.leaf 108408246100000000000000000000))
 (.node 1 (.leaf 109070768900000000000000000000)
 (.leaf 109060200300000000000000000000)))
 (.node 2 (.node 1 (.leaf 109514923700000000000000000000)
 (.leaf 109054574700000000000000000000))
 (.node 1 (.leaf 109168340000000000000000000000)
 (.leaf 108906598600000000000000000000)))))))
 (.node 32 (.node 16 (.node 8 (.node 4 (.node 2 (.node 1 (.leaf 109192477100000000000000000000)
 (.leaf 109268875300000000000000000000))
 (.node 1 (.leaf 109553008000000000000000000000)
 (.leaf 109067345300000000000000000000)))
 (.node 2 (.node 1 (.leaf 109976491100000000000000000000)
 (.leaf 109103817900000000000000000000))
 (.node 1 (.leaf 11102632368000000000011026323680000000000)
 (.leaf 109159073700000000000000000000))))
 (.node 4 (.node 2 (.node 1 (.leaf 108683992200000000000000000000)
 (.leaf 105430025200000000000000000000))
 (.node 1 (.leaf 108128880300000000000000000000)
 (.leaf 107431644400000000000000000000)))
 (.node 2 (.node 1 (.leaf 110252717500000000000000000000)
 (.leaf 109072816800000000000000000000))
 (.node 1 (.leaf 110174687700000000000000000000)
 (.leaf 107216568800000000000000000000)))))
 (.node 8 (.node 4 (.node 2 (.node 1 (.leaf 107684217000000000000000000000)
 (.leaf 106299494300000000000000000000))
 (.node 1 (.leaf 110226482100000000000000000000)
 (.leaf 110105334900000000000000000000)))
 (.node 2 (.node 1 (.leaf 11106094976000000000011060949760000000000)
 (.leaf 671082125148000000000000000000000000000000))
 (.node 1 (.leaf 105991511600000000000000000000)
 (.leaf 102882653200000000000000000000))))
 (.node 4 (.node 2 (.node 1 (.leaf 107816807300000000000000000000)
 (.leaf 109223285400000000000000000000))
 (.node 1 (.leaf 109149283200000000000000000000)
 (.leaf 105134471000000000000000000000)))
 (.node 2 (.node 1 (.leaf 561075091480000000000000000000000000000000)
 (.leaf 621075718996000000000000000000000000000000))
 (.node 1 (.leaf 108492430000000000000000000000)
 (.leaf 108817283000000000000000000000))))))
 (.node 16 (.node 8 (.node 4 (.node 2 (.node 1 (.leaf 11105355513000000000011053555130000000000)
 (.leaf 108405150700000000000000000000))
 (.node 1 (.leaf 105691823600000000000000000000)
 (.leaf 11110792298000000000011107922980000000000)))
 (.node 2 (.node 1 (.leaf 108840332800000000000000000000)
 (.leaf 107872428000000000000000000000))
 (.node 1 (.leaf 109701276600000000000000000000)
 (.leaf 111668932100000000000000000000))))
 (.node 4 (.node 2 (.node 1 (.leaf 109695540900000000000000000000)
 (.leaf 108924334200000000000000000000))
 (.node 1 (.leaf 110213395900000000000000000000)
 (.leaf 109493417400000000000000000000)))
 (.node 2 (.node 1 (.leaf 11067680732000000000010676807320000000000)
 (.leaf 109142084700000000000000000000))
 (.node 1 (.leaf 109962875400000000000000000000)
 (.leaf 11034775790108340917010347757900000000000)))))
 (.node 8 (.node 4 (.node 2 (.node 1 (.leaf 671073941536000000000000000000000000000000)
 (.leaf 108287368400000000000000000000))
 (.node 1 (.leaf 108314245500000000000000000000)
 (.leaf 108599137300000000000000000000)))
 (.node 2 (.node 1 (.leaf 109995643400000000000000000000)
 (.leaf 11101295374000000000011012953740000000000))
 (.node 1 (.leaf 111558092400000000000000000000)
 (.leaf 111670176000000000000000000000))))
 (.node 4 (.node 2 (.node 1 (.leaf 106006117900000000000000000000)
 (.leaf 110832700600000000000000000000))
 (.node 1 (.leaf 109382394200000000000000000000)
 (.leaf 11063169542000000000010631695420000000000)))
 (.node 2 (.node 1 (.leaf 109561103000000000000000000000)
 (.leaf 107145794200000000000000000000))
 (.node 1 (.leaf 107284407500000000000000000000)
 (.leaf 108355297200000000000000000000))))))))
 (.node 64 (.node 32 (.node 16 (.node 8 (.node 4 (.node 2 (.node 1 (.leaf 107988014600000000000000000000)
 (.leaf 108304376300000000000000000000))
 (.node 1 (.leaf 108664243400000000000000000000)
 (.leaf 109025259700000000000000000000)))
 (.node 2 (.node 1 (.leaf 107470659800000000000000000000)
 (.leaf 109870065900000000000000000000))
 (.node 1 (.leaf 107768761500000000000000000000)
 (.leaf 104738106000000000000000000000))))
 (.node 4 (.node 2 (.node 1 (.leaf 110454772900000000000000000000)
 (.leaf 109141889600000000000000000000))
 (.node 1 (.leaf 109816703900000000000000000000)
 (.leaf 105717007900000000000000000000)))
 (.node 2 (.node 1 (.leaf 109655401400000000000000000000)
 (.leaf 108175986500000000000000000000))
 (.node 1 (.leaf 107846104500000000000000000000)
 (.leaf 110138040000000000000000000000)))))
 (.node 8 (.node 4 (.node 2 (.node 1 (.leaf 109511023000000000000000000000)
 (.leaf 1056343682))
 (.node 1 (.leaf 11080124643000000000010801246431052754125)
 (.leaf 109771740900000000000000000000)))
 (.node 2 (.node 1 (.leaf 108237709900000000000000000000)
 (.leaf 110754925100000000000000000000))
 (.node 1 (.leaf 103282345600000000000000000000)
 (.leaf 107397066500000000000000000000))))
 (.node 4 (.node 2 (.node 1 (.leaf 109908176400000000000000000000)
 (.leaf 108903270400000000000000000000))
 (.node 1 (.leaf 1056658891)
 (.leaf 7610725110000841076062803000000000000000000001065883730)))
 (.node 2 (.node 1 (.leaf 1067078100)
 (.leaf 109126075000000000000000000000))
 (.node 1 (.leaf 107759802500000000000000000000)
 (.leaf 105861073800000000000000000000))))))
 (.node 16 (.node 8 (.node 4 (.node 2 (.node 1 (.leaf 107406575000000000000000000000)
 (.leaf 109095538400000000000000000000))
 (.node 1 (.leaf 111044835400000000000000000000)
 (.leaf 106203755200000000000000000000)))
 (.node 2 (.node 1 (.leaf 108549350900000000000000000000)
 (.leaf 105833995400000000000000000000))
 (.node 1 (.leaf 11112005752000000000011120057520000000000)
 (.leaf 411042566721000000000000000000000000000000))))
 (.node 4 (.node 2 (.node 1 (.leaf 107731063100000000000000000000)
 (.leaf 109342223200000000000000000000))
 (.node 1 (.leaf 108636143600000000000000000000)
 (.leaf 108534383500000000000000000000)))
 (.node 2 (.node 1 (.leaf 110843944000000000000000000000)
 (.leaf 110502462100000000000000000000))
 (.node 1 (.leaf 109627352000000000000000000000)
 (.leaf 411054654373000000000000000000000000000000)))))
 (.node 8 (.node 4 (.node 2 (.node 1 (.leaf 551051749887000000000000000000000000000000)
 (.leaf 105700140000000000000000000000))
 (.node 1 (.leaf 110358382500000000000000000000)
 (.leaf 107673148200000000000000000000)))
 (.node 2 (.node 1 (.leaf 11085738876000000000010857388760000000000)
 (.leaf 110126070500000000000000000000))
 (.node 1 (.leaf 1060391965)
 (.leaf 631077709122000000000000000000000000000000))))
 (.node 4 (.node 2 (.node 1 (.leaf 108569596800000000000000000000)
 (.leaf 103417136400000000000000000000))
 (.node 1 (.leaf 107159601800000000000000000000)
 (.leaf 1032185595)))
 (.node 2 (.node 1 (.leaf 109235509700000000000000000000)
 (.leaf 109219422400000000000000000000))
 (.node 1 (.leaf 1050894102)
 (.leaf 110488982700000000000000000000)))))))
 (.node 32 (.node 16 (.node 8 (.node 4 (.node 2 (.node 1 (.leaf 109069770700000000000000000000)
 (.leaf 109319511100000000000000000000))
 (.node 1 (.leaf 104801671500000000000000000000)
 (.leaf 109492484200000000000000000000)))
 (.node 2 (.node 1 (.leaf 110865683600000000000000000000)
 (.leaf 109168805500000000000000000000))
 (.node 1 (.leaf 107531225500000000001074243635)
 (.leaf 11093931454000000000010939314540000000000))))
 (.node 4 (.node 2 (.node 1 (.leaf 105788765700000000000000000000)
 (.leaf 110583831600000000000000000000))
 (.node 1 (.leaf 1036710031)
 (.leaf 105162405100000000000000000000)))
 (.node 2 (.node 1 (.leaf 641026263836000000000000000000000000000000)
 (.leaf 108065114300000000000000000000))
 (.node 1 (.leaf 106825416400000000001059361969)
 (.leaf 109832914900000000000000000000)))))
 (.node 8 (.node 4 (.node 2 (.node 1 (.leaf 107176253200000000000000000000)
 (.leaf 105313416800000000000000000000))
 (.node 1 (.leaf 108950687100000000000000000000)
 (.leaf 107923434900000000000000000000)))
 (.node 2 (.node 1 (.leaf 105918025700000000000000000000)
 (.leaf 109558596900000000000000000000))
 (.node 1 (.leaf 1049070549)
 (.leaf 107639564400000000000000000000))))
 (.node 4 (.node 2 (.node 1 (.leaf 108086379400000000000000000000)
 (.leaf 107601819900000000000000000000))
 (.node 1 (.leaf 109378168400000000000000000000)
 (.leaf 108720218400000000000000000000)))
 (.node 2 (.node 1 (.leaf 109353212300000000000000000000)
 (.leaf 108922780300000000000000000000))
 (.node 1 (.leaf 109429024400000000000000000000)
 (.leaf 108660732700000000000000000000))))))
 (.node 16 (.node 8 (.node 4 (.node 2 (.node 1 (.leaf 108207523500000000000000000000)
 (.leaf 11113603741000000000011136037410000000000))
 (.node 1 (.leaf 108266141000000000000000000000)
 (.leaf 110502220900000000000000000000)))
 (.node 2 (.node 1 (.leaf 109862663000000000000000000000)
 (.leaf 109153388300000000000000000000))
 (.node 1 (.leaf 108158706000000000000000000000)
 (.leaf 108110807000000000000000000000))))
 (.node 4 (.node 2 (.node 1 (.leaf 107597977900000000000000000000)
 (.leaf 108697734900000000000000000000))
 (.node 1 (.leaf 103877676400000000000000000000)
 (.leaf 108731241100000000000000000000)))
 (.node 2 (.node 1 (.leaf 110351126400000000000000000000)
 (.leaf 109947513700000000000000000000))
 (.node 1 (.leaf 1042738724)
 (.leaf 1042341694)))))
 (.node 8 (.node 4 (.node 2 (.node 1 (.leaf 11102488241000000000011024882410000000000)
 (.leaf 109687687100000000000000000000))
 (.node 1 (.leaf 108757826700000000000000000000)
 (.leaf 108405540800000000000000000000)))
 (.node 2 (.node 1 (.leaf 110346334400000000000000000000)
 (.leaf 110225087500000000000000000000))
 (.node 1 (.leaf 108851376400000000000000000000)
 (.leaf 110047123200000000000000000000))))
 (.node 4 (.node 2 (.node 1 (.leaf 108006213700000000000000000000)
 (.leaf 109398374500000000000000000000))
 (.node 1 (.leaf 941091606359000000000000000000000000000000)
 (.leaf 811036792055000000000000000000000000000000)))
 (.node 2 (.node 1 (.leaf 109178671600000000000000000000)
 (.leaf 711107254173000000000000000000000000000000))
 (.node 1 (.leaf 108407696700000000000000000000)
 (.leaf 1042976110)))))))))))))
 (.node 2048 (.node 1024 (.node 512 (.node 256 (.node 128 (.node 64 (.node 32 (.node 16 (.node 8 (.node 4 (.node 2 (.node 1 (.leaf 741073414787000000000000000000000000000000)
 (.leaf 551099163784000000000000000000000000000000))
 (.node 1 (.leaf 107430709000000000000000000000)
 (.leaf 103161364400000000000000000000)))
 (.node 2 (.node 1 (.leaf 11119934986000000000011199349860000000000)
 (.leaf 781073902011000000000000000000000000000000))
 (.node 1 (.leaf 521091887637102777593000000000000000000000)
 (.leaf 106277719200000000000000000000))))
 (.node 4 (.node 2 (.node 1 (.leaf 105488601200000000000000000000)
 (.leaf 111627851500000000000000000000))
 (.node 1 (.leaf 109266820100000000000000000000)
 (.leaf 107864240700000000000000000000)))
 (.node 2 (.node 1 (.leaf 109286355100000000000000000000)
 (.leaf 109945621100000000000000000000))
 (.node 1 (.leaf 106923328300000000000000000000)
 (.leaf 7111036415590741110159629000000000000000000000000000000)))))
 (.node 8 (.node 4 (.node 2 (.node 1 (.leaf 711082833339000000000000000000000000000000)
 (.leaf 107644316500000000000000000000))
 (.node 1 (.leaf 108776136900000000000000000000)
 (.leaf 107910734500000000000000000000)))
 (.node 2 (.node 1 (.leaf 109088252900000000000000000000)
 (.leaf 641085251888000000000000000000000000000000))
 (.node 1 (.leaf 108626161200000000000000000000)
 (.leaf 107867071800000000000000000000))))
 (.node 4 (.node 2 (.node 1 (.leaf 108621899800000000000000000000)
 (.leaf 106350359500000000000000000000))
 (.node 1 (.leaf 811090124677000000000000000000000000000000)
 (.leaf 105442537600000000000000000000)))
 (.node 2 (.node 1 (.leaf 741084988197000000000000000000000000000000)
 (.leaf 108922679600000000000000000000))
 (.node 1 (.leaf 1045123288)
 (.leaf 109236772100000000000000000000))))))
 (.node 16 (.node 8 (.node 4 (.node 2 (.node 1 (.leaf 641065435361000000000000000000000000000000)
 (.leaf 108217948400000000000000000000))
 (.node 1 (.leaf 1042352205)
 (.leaf 108760867500000000000000000000)))
 (.node 2 (.node 1 (.leaf 109030213200000000000000000000)
 (.leaf 110085689800000000000000000000))
 (.node 1 (.leaf 110183763100000000000000000000)
 (.leaf 106077751600000000000000000000))))
 (.node 4 (.node 2 (.node 1 (.leaf 1041520045)
 (.leaf 671085131177000000000000000000000000000000))
 (.node 1 (.leaf 107597122200000000000000000000)
 (.leaf 1066358709)))
 (.node 2 (.node 1 (.leaf 721078309311000000000000000000000000000000)
 (.leaf 111200551600000000000000000000))
 (.node 1 (.leaf 105114465900000000000000000000)
 (.leaf 11053184893000000000010531848930000000000)))))
 (.node 8 (.node 4 (.node 2 (.node 1 (.leaf 106533687500000000000000000000)
 (.leaf 108732872700000000000000000000))
 (.node 1 (.leaf 1050861339)
 (.leaf 108137642200000000000000000000)))
 (.node 2 (.node 1 (.leaf 901017230911000000000000000000000000000000)
 (.leaf 106151264300000000000000000000))
 (.node 1 (.leaf 110024007400000000000000000000)
 (.leaf 109328109400000000000000000000))))
 (.node 4 (.node 2 (.node 1 (.leaf 109022265000000000000000000000)
 (.leaf 105842813500000000000000000000))
 (.node 1 (.leaf 1051060697298000000000000000000000000000000)
 (.leaf 109998238600000000000000000000)))
 (.node 2 (.node 1 (.leaf 601094797638000000000000000000000000000000)
 (.leaf 1011050225249000000000000000000000000000000))
 (.node 1 (.leaf 107690483300000000000000000000)
 (.leaf 1050714080)))))))
 (.node 32 (.node 16 (.node 8 (.node 4 (.node 2 (.node 1 (.leaf 108563479400000000000000000000)
 (.leaf 11112812012000000000011128120120000000000))
 (.node 1 (.leaf 108941138700000000000000000000)
 (.leaf 108180210200000000000000000000)))
 (.node 2 (.node 1 (.leaf 1066520816)
 (.leaf 1043850246))
 (.node 1 (.leaf 107778534300000000000000000000)
 (.leaf 1032859486))))
 (.node 4 (.node 2 (.node 1 (.leaf 1056359459)
 (.leaf 1050709720))
 (.node 1 (.leaf 1037686306)
 (.leaf 1034156500)))
 (.node 2 (.node 1 (.leaf 1062825155)
 (.leaf 108434859000000000000000000000))
 (.node 1 (.leaf 11071323325000000000010713233250000000000)
 (.leaf 1091057204399000000000000000000000000000000)))))
 (.node 8 (.node 4 (.node 2 (.node 1 (.leaf 5510579405880601073914039000000000000000000000000000000)
 (.leaf 1044174958))
 (.node 1 (.leaf 681062757118000000000000000000000000000000)
 (.leaf 11101635934000000000011016359340000000000)))
 (.node 2 (.node 1 (.leaf 1054357793)
 (.leaf 1032070190))
 (.node 1 (.leaf 1046068727)
 (.leaf 108461664800000000000000000000))))
 (.node 4 (.node 2 (.node 1 (.leaf 111085580500000000000000000000)
 (.leaf 1048528973))
 (.node 1 (.leaf 121060371587000000000000000000000000000000)
 (.leaf 1030910102)))
 (.node 2 (.node 1 (.leaf 1063854054)
 (.leaf 110755684520671083917931000000000010755684520000000000))
 (.node 1 (.leaf 1055863026)
 (.leaf 109189687900000000000000000000))))))
 (.node 16 (.node 8 (.node 4 (.node 2 (.node 1 (.leaf 109141867600000000000000000000)
 (.leaf 107078072900000000000000000000))
 (.node 1 (.leaf 1020001930)
 (.leaf 1032429024)))
 (.node 2 (.node 1 (.leaf 1068394151)
 (.leaf 1051742267))
 (.node 1 (.leaf 108487566700000000000000000000)
 (.leaf 108774421400000000000000000000))))
 (.node 4 (.node 2 (.node 1 (.leaf 121066293079000000000000000000000000000000)
 (.leaf 1049976813))
 (.node 1 (.leaf 109169358100000000001025236218)
 (.leaf 11067986803000000000010679868030000000000)))
 (.node 2 (.node 1 (.leaf 102470070600000000000000000000)
 (.leaf 1041075513))
 (.node 1 (.leaf 109787406700000000000000000000)
 (.leaf 107973590400000000000000000000)))))
 (.node 8 (.node 4 (.node 2 (.node 1 (.leaf 107918867300000000000000000000)
 (.leaf 106171303000000000000000000000))
 (.node 1 (.leaf 11083900929000000000010839009290000000000)
 (.leaf 11031965399107027221210319653990000000000)))
 (.node 2 (.node 1 (.leaf 109382404700000000000000000000)
 (.leaf 841035166151000000000000000000000000000000))
 (.node 1 (.leaf 1036936847)
 (.leaf 1058208603))))
 (.node 4 (.node 2 (.node 1 (.leaf 1026528930)
 (.leaf 1044011150))
 (.node 1 (.leaf 1060675672)
 (.leaf 107405866200000000000000000000)))
 (.node 2 (.node 1 (.leaf 106623066400000000000000000000)
 (.leaf 1058948378))
 (.node 1 (.leaf 1054961843)
 (.leaf 1025944956))))))))
 (.node 64 (.node 32 (.node 16 (.node 8 (.node 4 (.node 2 (.node 1 (.leaf 110173686300000000000000000000)
 (.leaf 109168516100000000000000000000))
 (.node 1 (.leaf 102915482900000000000000000000)
 (.leaf 105419566300000000000000000000)))
 (.node 2 (.node 1 (.leaf 241091334401000000000000000000001057111255)
 (.leaf 631049344335000000000000000000001032539626))
 (.node 1 (.leaf 1033841615)
 (.leaf 1051955283))))
 (.node 4 (.node 2 (.node 1 (.leaf 1061451434)
 (.leaf 109925488400000000000000000000))
 (.node 1 (.leaf 108575391200000000000000000000)
 (.leaf 107274425100000000000000000000)))
 (.node 2 (.node 1 (.leaf 1049483814)
 (.leaf 1040117173))
 (.node 1 (.leaf 1049592746)
 (.leaf 108782346600000000000000000000)))))
 (.node 8 (.node 4 (.node 2 (.node 1 (.leaf 108601532200000000000000000000)
 (.leaf 111619030400000000000000000000))
 (.node 1 (.leaf 111377871000000000001055943371)
 (.leaf 111292147300000000000000000000)))
 (.node 2 (.node 1 (.leaf 11054819990106751353410548199900000000000)
 (.leaf 11086265217000000000010862652170000000000))
 (.node 1 (.leaf 108351572700000000000000000000)
 (.leaf 181103111157000000000000000000000000000000))))
 (.node 4 (.node 2 (.node 1 (.leaf 281088303948000000000000000000001068963031)
 (.leaf 105457123700000000000000000000))
 (.node 1 (.leaf 105994625500000000000000000000)
 (.leaf 1040795866)))
 (.node 2 (.node 1 (.leaf 1072806621)
 (.leaf 1055439997))
 (.node 1 (.leaf 1048678482)
 (.leaf 1041183984))))))
 (.node 16 (.node 8 (.node 4 (.node 2 (.node 1 (.leaf 1057118343)
 (.leaf 1063884320))
 (.node 1 (.leaf 601042297823000000000000000000000000000000)
 (.leaf 109249035200000000000000000000)))
 (.node 2 (.node 1 (.leaf 11071134835000000000010711348350000000000)
 (.leaf 4110440061990581053539791000000000000000000000000000000))
 (.node 1 (.leaf 521080558788000000000000000000000000000000)
 (.leaf 1051509522))))
 (.node 4 (.node 2 (.node 1 (.leaf 108231991000000000000000000000)
 (.leaf 11103397189000000000011033971890000000000))
 (.node 1 (.leaf 111720425100000000000000000000)
 (.leaf 1058989555)))
 (.node 2 (.node 1 (.leaf 987219534)
 (.leaf 11081573266108444247910815732660000000000))
 (.node 1 (.leaf 6710945383910701095807559000000000000000000000000000000)
 (.leaf 991286193)))))
 (.node 8 (.node 4 (.node 2 (.node 1 (.leaf 1070635934)
 (.leaf 1049570979))
 (.node 1 (.leaf 11091485217000000000010914852170000000000)
 (.leaf 1057684855)))
 (.node 2 (.node 1 (.leaf 1066321832)
 (.leaf 11093688640000000000010936886401055300763))
 (.node 1 (.leaf 1058734493)
 (.leaf 591041925102109500841300000000001040996537))))
 (.node 4 (.node 2 (.node 1 (.leaf 11065562912000000000010655629120000000000)
 (.leaf 1058494006))
 (.node 1 (.leaf 551096912270000000000000000000000000000000)
 (.leaf 108345621000000000000000000000)))
 (.node 2 (.node 1 (.leaf 1056860172)
 (.leaf 1043382082))
 (.node 1 (.leaf 531021134732000000000000000000000000000000)
 (.leaf 11082248122000000000010822481220000000000)))))))
 (.node 32 (.node 16 (.node 8 (.node 4 (.node 2 (.node 1 (.leaf 1044363726)
 (.leaf 111620375200000000000000000000))
 (.node 1 (.leaf 111922913000000000000000000000)
 (.leaf 561066651670000000000000000000000000000000)))
 (.node 2 (.node 1 (.leaf 106960817000000000000000000000)
 (.leaf 4810782039340571098555885000000000000000000000000000000))
 (.node 1 (.leaf 104852030000000000001017392766)
 (.leaf 1041166563))))
 (.node 4 (.node 2 (.node 1 (.leaf 1055957425)
 (.leaf 611033505453000000000000000000000000000000))
 (.node 1 (.leaf 1021772129)
 (.leaf 1049188976)))
 (.node 2 (.node 1 (.leaf 731067602123000000000000000000000000000000)
 (.leaf 1030938224))
 (.node 1 (.leaf 1034975429)
 (.leaf 111126608600000000000000000000)))))
 (.node 8 (.node 4 (.node 2 (.node 1 (.leaf 110880190600000000001067784635)
 (.leaf 109795879200000000001026884645))
 (.node 1 (.leaf 1061882394)
 (.leaf 108721881500000000000000000000)))
 (.node 2 (.node 1 (.leaf 108576234300000000000000000000)
 (.leaf 11085807422000000000010858074220000000000))
 (.node 1 (.leaf 2710578119220571057871070000000000000000000000000000000)
 (.leaf 541073260738000000000000000000001049639534))))
 (.node 4 (.node 2 (.node 1 (.leaf 301080997824000000000000000000000000000000)
 (.leaf 1064971887))
 (.node 1 (.leaf 105743326300000000001054546513)
 (.leaf 1021717022)))
 (.node 2 (.node 1 (.leaf 108688647900000000000000000000)
 (.leaf 1050952754))
 (.node 1 (.leaf 108207452200000000000000000000)
 (.leaf 108156998900000000000000000000))))))
 (.node 16 (.node 8 (.node 4 (.node 2 (.node 1 (.leaf 108746703400000000000000000000)
 (.leaf 681073409390000000000000000000001029294828))
 (.node 1 (.leaf 1041410284)
 (.leaf 531079137161000000000000000000000000000000)))
 (.node 2 (.node 1 (.leaf 361075449866000000000000000000001078328719)
 (.leaf 1060585977))
 (.node 1 (.leaf 1067906893)
 (.leaf 109742286400000000000000000000))))
 (.node 4 (.node 2 (.node 1 (.leaf 108419889500000000000000000000)
 (.leaf 1056795726))
 (.node 1 (.leaf 107658203900000000000000000000)
 (.leaf 1034053259)))
 (.node 2 (.node 1 (.leaf 1022161556)
 (.leaf 1034435440))
 (.node 1 (.leaf 1041675412)
 (.leaf 1052015165)))))
 (.node 8 (.node 4 (.node 2 (.node 1 (.leaf 110440853000000000000000000000)
 (.leaf 109647820200000000000000000000))
 (.node 1 (.leaf 109168940800000000000000000000)
 (.leaf 108095606900000000000000000000)))
 (.node 2 (.node 1 (.leaf 111322860100000000000000000000)
 (.leaf 111867172000000000000000000000))
 (.node 1 (.leaf 109145951800000000000000000000)
 (.leaf 106755916800000000000000000000))))
 (.node 4 (.node 2 (.node 1 (.leaf 107453689600000000000000000000)
 (.leaf 541031994190000000000000000000001039194624))
 (.node 1 (.leaf 1049287507)
 (.leaf 1074711404)))
 (.node 2 (.node 1 (.leaf 1061461929)
 (.leaf 1052431898))
 (.node 1 (.leaf 1032767140)
 (.leaf 1064369533)))))))))
 (.node 128 (.node 64 (.node 32 (.node 16 (.node 8 (.node 4 (.node 2 (.node 1 (.leaf 110191354800000000000000000000)
 (.leaf 111305684400000000000000000000))
 (.node 1 (.leaf 111783869200000000001065879895)
 (.leaf 11096380719000000000010963807191077822317)))
 (.node 2 (.node 1 (.leaf 1017783276)
 (.leaf 1029131336))
 (.node 1 (.leaf 11085120626000000000010851206260000000000)
 (.leaf 107956670600000000000000000000))))
 (.node 4 (.node 2 (.node 1 (.leaf 109673216700000000001000478036)
 (.leaf 107613773600000000000000000000))
 (.node 1 (.leaf 111594993100000000000000000000)
 (.leaf 108501412100000000000000000000)))
 (.node 2 (.node 1 (.leaf 108776411600000000000000000000)
 (.leaf 1040117691))
 (.node 1 (.leaf 1038489937)
 (.leaf 1072793899)))))
 (.node 8 (.node 4 (.node 2 (.node 1 (.leaf 1041382287)
 (.leaf 1057519634))
 (.node 1 (.leaf 111829288200000000000000000000)
 (.leaf 107295941900000000000000000000)))
 (.node 2 (.node 1 (.leaf 1072150403)
 (.leaf 1003228888))
 (.node 1 (.leaf 1070296964)
 (.leaf 1061350013))))
 (.node 4 (.node 2 (.node 1 (.leaf 1044143046)
 (.leaf 112028866300000000000000000000))
 (.node 1 (.leaf 110466674200000000000000000000)
 (.leaf 969508388)))
 (.node 2 (.node 1 (.leaf 1062351294)
 (.leaf 151074243898000000000000000000001037346194))
 (.node 1 (.leaf 107804027300000000000000000000)
 (.leaf 91047802664000000000000000000000000000000))))))
 (.node 16 (.node 8 (.node 4 (.node 2 (.node 1 (.leaf 1033581386)
 (.leaf 1046758925))
 (.node 1 (.leaf 111655560200000000001072035337)
 (.leaf 1039161374)))
 (.node 2 (.node 1 (.leaf 109225855400000000000000000000)
 (.leaf 106707573300000000001069802728))
 (.node 1 (.leaf 1085039309)
 (.leaf 108348609400000000001069760511))))
 (.node 4 (.node 2 (.node 1 (.leaf 1053735031)
 (.leaf 1051169998))
 (.node 1 (.leaf 1006432711)
 (.leaf 1023901032)))
 (.node 2 (.node 1 (.leaf 109113455400000000000000000000)
 (.leaf 104194416800000000000000000000))
 (.node 1 (.leaf 671050615922000000000000000000001049033967)
 (.leaf 1056618213)))))
 (.node 8 (.node 4 (.node 2 (.node 1 (.leaf 91060651227000000000000000000001044546339)
 (.leaf 1032106353))
 (.node 1 (.leaf 1056552764)
 (.leaf 107829306300000000000000000000)))
 (.node 2 (.node 1 (.leaf 1075357490)
 (.leaf 1059241222))
 (.node 1 (.leaf 291032358107000000000000000000000000000000)
 (.leaf 1015718152))))
 (.node 4 (.node 2 (.node 1 (.leaf 601052011535000000000000000000001020160501)
 (.leaf 110958867900000000000000000000))
 (.node 1 (.leaf 1057994696)
 (.leaf 101022462600000000000000000000)))
 (.node 2 (.node 1 (.leaf 531057188134000000000000000000001056523072)
 (.leaf 1058269760))
 (.node 1 (.leaf 11083561757000000000010835617570000000000)
 (.leaf 1052281698)))))))
 (.node 32 (.node 16 (.node 8 (.node 4 (.node 2 (.node 1 (.leaf 108489944900000000001041551279)
 (.leaf 1003539627))
 (.node 1 (.leaf 1059195458)
 (.leaf 111378083300000000000000000000)))
 (.node 2 (.node 1 (.leaf 11110729745000000000011107297450000000000)
 (.leaf 1055899174))
 (.node 1 (.leaf 11068725530106806936300000000000000000000)
 (.leaf 1058026533))))
 (.node 4 (.node 2 (.node 1 (.leaf 741062655356000000000000000000000000000000)
 (.leaf 1041307725))
 (.node 1 (.leaf 1064203490)
 (.leaf 1026445701)))
 (.node 2 (.node 1 (.leaf 651076273710000000000000000000000000000000)
 (.leaf 1028912871))
 (.node 1 (.leaf 109073266600000000000000000000)
 (.leaf 461060424521000000000000000000001041992289)))))
 (.node 8 (.node 4 (.node 2 (.node 1 (.leaf 1059211337)
 (.leaf 1056373692))
 (.node 1 (.leaf 1032554665)
 (.leaf 1031790586)))
 (.node 2 (.node 1 (.leaf 1068384517)
 (.leaf 1047153705))
 (.node 1 (.leaf 108842270600000000000000000000)
 (.leaf 110661152340301068338669000000000000000000001032453281))))
 (.node 4 (.node 2 (.node 1 (.leaf 1047476120)
 (.leaf 1046075263))
 (.node 1 (.leaf 1042342439)
 (.leaf 1048692657)))
 (.node 2 (.node 1 (.leaf 1041809399)
 (.leaf 105743623200000000000000000000))
 (.node 1 (.leaf 108491855400000000000000000000)
 (.leaf 851052133890000000000000000000000000000000))))))
 (.node 16 (.node 8 (.node 4 (.node 2 (.node 1 (.leaf 1042204466)
 (.leaf 1023496453))
 (.node 1 (.leaf 1042688340)
 (.leaf 108793455200000000000000000000)))
 (.node 2 (.node 1 (.leaf 108638037300000000000000000000)
 (.leaf 106665647000000000000000000000))
 (.node 1 (.leaf 109255366500000000000000000000)
 (.leaf 671082890797000000000000000000000000000000))))
 (.node 4 (.node 2 (.node 1 (.leaf 1058932127)
 (.leaf 11072683633000000000010726836330000000000))
 (.node 1 (.leaf 111076725131000000000000000000001043916502)
 (.leaf 1067060963)))
 (.node 2 (.node 1 (.leaf 11088761397108687284810887613971062846589)
 (.leaf 1049160408))
 (.node 1 (.leaf 631055646841000000000000000000001038130250)
 (.leaf 1049553256)))))
 (.node 8 (.node 4 (.node 2 (.node 1 (.leaf 1031055590406000000000000000000001060440364)
 (.leaf 1043737070))
 (.node 1 (.leaf 1050838000)
 (.leaf 1056101804)))
 (.node 2 (.node 1 (.leaf 1024049206)
 (.leaf 1039136730))
 (.node 1 (.leaf 109591364900000000000000000000)
 (.leaf 1048727486))))
 (.node 4 (.node 2 (.node 1 (.leaf 641071130650000000000000000000001061821039)
 (.leaf 1040524417))
 (.node 1 (.leaf 1017699287)
 (.leaf 1038305532)))
 (.node 2 (.node 1 (.leaf 1036345350)
 (.leaf 570993704706000000000000000000001018376309))
 (.node 1 (.leaf 1035249926)
 (.leaf 651058996551000000000000000000000000000000))))))))
 (.node 64 (.node 32 (.node 16 (.node 8 (.node 4 (.node 2 (.node 1 (.leaf 1041480771)
 (.leaf 1063915537))
 (.node 1 (.leaf 641060524171000000000000000000000000000000)
 (.leaf 1044439805)))
 (.node 2 (.node 1 (.leaf 1060377215)
 (.leaf 1035649314))
 (.node 1 (.leaf 1035359023)
 (.leaf 1031971564))))
 (.node 4 (.node 2 (.node 1 (.leaf 109909723100000000000000000000)
 (.leaf 1020870307))
 (.node 1 (.leaf 1042006678)
 (.leaf 1030914440)))
 (.node 2 (.node 1 (.leaf 1042902970)
 (.leaf 1044311344))
 (.node 1 (.leaf 6410082853440741059603765000000000000000000001046791842)
 (.leaf 861058923194000000000000000000001051416612)))))
 (.node 8 (.node 4 (.node 2 (.node 1 (.leaf 101079886373000000000000000000000000000000)
 (.leaf 109438105000000000000000000000))
 (.node 1 (.leaf 110145296100000000000000000000)
 (.leaf 1042286882)))
 (.node 2 (.node 1 (.leaf 1010750328)
 (.leaf 161067367793000000000000000000001049395927))
 (.node 1 (.leaf 1058547603)
 (.leaf 1058966652))))
 (.node 4 (.node 2 (.node 1 (.leaf 1037964270)
 (.leaf 790978097523000000000000000000000000000000))
 (.node 1 (.leaf 1031057754879000000000000000000000000000000)
 (.leaf 1063962296)))
 (.node 2 (.node 1 (.leaf 1036614659)
 (.leaf 641074652234000000000000000000001027214982))
 (.node 1 (.leaf 1042481557)
 (.leaf 105793347500000000001054172674))))))
 (.node 16 (.node 8 (.node 4 (.node 2 (.node 1 (.leaf 1053632473)
 (.leaf 1034774639))
 (.node 1 (.leaf 1054645038)
 (.leaf 1043248911)))
 (.node 2 (.node 1 (.leaf 1052267455)
 (.leaf 961044308068000000000000000000001032927802))
 (.node 1 (.leaf 831068909760000000000000000000000000000000)
 (.leaf 103474521200000000000000000000))))
 (.node 4 (.node 2 (.node 1 (.leaf 651068533845000000000000000000000000000000)
 (.leaf 951069508052000000000000000000001036235780))
 (.node 1 (.leaf 621077407419000000000000000000001056043878)
 (.leaf 1032132310)))
 (.node 2 (.node 1 (.leaf 1049281055)
 (.leaf 111122998900000000000000000000))
 (.node 1 (.leaf 1050670783)
 (.leaf 721067672842000000000000000000000000000000)))))
 (.node 8 (.node 4 (.node 2 (.node 1 (.leaf 1035697457)
 (.leaf 1031020460))
 (.node 1 (.leaf 1036463142)
 (.leaf 1055194461)))
 (.node 2 (.node 1 (.leaf 1054283875)
 (.leaf 601061074611000000000000000000001061074112))
 (.node 1 (.leaf 1042348410)
 (.leaf 1040792994))))
 (.node 4 (.node 2 (.node 1 (.leaf 1028240485)
 (.leaf 1044710093))
 (.node 1 (.leaf 1056066048)
 (.leaf 1040501845)))
 (.node 2 (.node 1 (.leaf 811061270107000000000000000000000000000000)
 (.leaf 106607363000000000000000000000))
 (.node 1 (.leaf 108712767300000000000000000000)
 (.leaf 108295253700000000000000000000)))))))
 (.node 32 (.node 16 (.node 8 (.node 4 (.node 2 (.node 1 (.leaf 1042314488)
 (.leaf 601058828404000000000000000000000000000000))
 (.node 1 (.leaf 861061295658000000000000000000000000000000)
 (.leaf 381059137084000000000000000000000000000000)))
 (.node 2 (.node 1 (.leaf 591052792067000000000000000000001044628715)
 (.leaf 271083043108000000000000000000001052381921))
 (.node 1 (.leaf 11097681451000000000010976814511040915364)
 (.leaf 1027253002))))
 (.node 4 (.node 2 (.node 1 (.leaf 1023325586)
 (.leaf 1046998480))
 (.node 1 (.leaf 1049198115)
 (.leaf 1048679692)))
 (.node 2 (.node 1 (.leaf 730990695077000000000000000000000000000000)
 (.leaf 1034813651))
 (.node 1 (.leaf 1035650359)
 (.leaf 1030536909)))))
 (.node 8 (.node 4 (.node 2 (.node 1 (.leaf 1025417090)
 (.leaf 1043613271))
 (.node 1 (.leaf 1031892235)
 (.leaf 991057517500000000000000000000001029108640)))
 (.node 2 (.node 1 (.leaf 821052206772000000000000000000000000000000)
 (.leaf 7410709166671121073264647000000000000000000000000000000))
 (.node 1 (.leaf 108617709600000000001044405015)
 (.leaf 561070869525000000000000000000000000000000))))
 (.node 4 (.node 2 (.node 1 (.leaf 1017600657)
 (.leaf 110832724200000000000000000000))
 (.node 1 (.leaf 981060336260000000000000000000001035778178)
 (.leaf 1050477064)))
 (.node 2 (.node 1 (.leaf 1026961840)
 (.leaf 1061538890))
 (.node 1 (.leaf 107929441100000000000000000000)
 (.leaf 1046597172))))))
 (.node 16 (.node 8 (.node 4 (.node 2 (.node 1 (.leaf 1053263046)
 (.leaf 1045602261))
 (.node 1 (.leaf 1043876274)
 (.leaf 741049229282000000000000000000000000000000)))
 (.node 2 (.node 1 (.leaf 741015595677000000000000000000001042687362)
 (.leaf 1054655090))
 (.node 1 (.leaf 721063533362000000000000000000000000000000)
 (.leaf 1111057840910000000000000000000000000000000))))
 (.node 4 (.node 2 (.node 1 (.leaf 1018517424)
 (.leaf 1038329557))
 (.node 1 (.leaf 831063966090000000000000000000000000000000)
 (.leaf 701059772160000000000000000000001033470873)))
 (.node 2 (.node 1 (.leaf 1024782496)
 (.leaf 1045086822))
 (.node 1 (.leaf 1033522191)
 (.leaf 1051132850)))))
 (.node 8 (.node 4 (.node 2 (.node 1 (.leaf 1041853550)
 (.leaf 6510540614740811065567176000000000000000000000000000000))
 (.node 1 (.leaf 1044726104)
 (.leaf 9710559626021031059928067000000000000000000001043431362)))
 (.node 2 (.node 1 (.leaf 109164049200000000000000000000)
 (.leaf 1039997285))
 (.node 1 (.leaf 106811348700000000000000000000)
 (.leaf 571076897892000000000000000000000999474532))))
 (.node 4 (.node 2 (.node 1 (.leaf 1042293099)
 (.leaf 6110454729500891081591159000000000000000000001057556393))
 (.node 1 (.leaf 1044705434)
 (.leaf 1046044196)))
 (.node 2 (.node 1 (.leaf 1054387234)
 (.leaf 111183121600000000000000000000))
 (.node 1 (.leaf 1023697191)
 (.leaf 601068072690000000000000000000001055959923))))))))))
 (.node 256 (.node 128 (.node 64 (.node 32 (.node 16 (.node 8 (.node 4 (.node 2 (.node 1 (.leaf 1022991542)
 (.leaf 631046001041000000000000000000000000000000))
 (.node 1 (.leaf 791052688191000000000000000000001040411753)
 (.leaf 107664084300000000000000000000)))
 (.node 2 (.node 1 (.leaf 1054764188)
 (.leaf 651074141319000000000000000000001025145745))
 (.node 1 (.leaf 741056381204000000000000000000001056240529)
 (.leaf 1072712082))))
 (.node 4 (.node 2 (.node 1 (.leaf 1052755851)
 (.leaf 1060185788))
 (.node 1 (.leaf 1051614149)
 (.leaf 1058214477)))
 (.node 2 (.node 1 (.leaf 109517555600000000001032568173)
 (.leaf 1047562706))
 (.node 1 (.leaf 1055242638)
 (.leaf 971063722870000000000000000000000000000000)))))
 (.node 8 (.node 4 (.node 2 (.node 1 (.leaf 105867236100000000000000000000)
 (.leaf 109976905300000000000000000000))
 (.node 1 (.leaf 110862805200000000000000000000)
 (.leaf 110050913800000000000000000000)))
 (.node 2 (.node 1 (.leaf 611063143696000000000000000000000000000000)
 (.leaf 1049271085))
 (.node 1 (.leaf 1051916129)
 (.leaf 73105136351110310707857741051076871732000000000000000000001053103449))))
 (.node 4 (.node 2 (.node 1 (.leaf 66106182542307110757989260791077076393000000000000000000001027092087)
 (.leaf 1056891810))
 (.node 1 (.leaf 1039853435)
 (.leaf 1023566921)))
 (.node 2 (.node 1 (.leaf 691080484737000000000000000000000000000000)
 (.leaf 1073120867))
 (.node 1 (.leaf 741001614815000000000000000000001001557492)
 (.leaf 1044038677))))))
 (.node 16 (.node 8 (.node 4 (.node 2 (.node 1 (.leaf 780985028273000000000000000000000000000000)
 (.leaf 781050854861000000000000000000000000000000))
 (.node 1 (.leaf 841058689902000000000000000000001034844230)
 (.leaf 1023559392)))
 (.node 2 (.node 1 (.leaf 1032426873)
 (.leaf 1041318177))
 (.node 1 (.leaf 109123564700000000000000000000)
 (.leaf 1030138440))))
 (.node 4 (.node 2 (.node 1 (.leaf 921089764769000000000000000000000000000000)
 (.leaf 108384682500000000000000000000))
 (.node 1 (.leaf 731034463320000000000000000000000000000000)
 (.leaf 1042303720)))
 (.node 2 (.node 1 (.leaf 1033127381)
 (.leaf 1060292800))
 (.node 1 (.leaf 1037508663)
 (.leaf 1035888276)))))
 (.node 8 (.node 4 (.node 2 (.node 1 (.leaf 1045127383)
 (.leaf 1060644955))
 (.node 1 (.leaf 621050123489000000000000000000000000000000)
 (.leaf 1043933112)))
 (.node 2 (.node 1 (.leaf 1042337844)
 (.leaf 661057404846000000000000000000000000000000))
 (.node 1 (.leaf 1032190590)
 (.leaf 5110225571190691067700580000000000000000000000000000000))))
 (.node 4 (.node 2 (.node 1 (.leaf 641077458141000000000000000000001037546526)
 (.leaf 1023066203))
 (.node 1 (.leaf 691059188009000000000000000000000000000000)
 (.leaf 1018585666)))
 (.node 2 (.node 1 (.leaf 891065990924000000000000000000000000000000)
 (.leaf 1050860651))
 (.node 1 (.leaf 1015146055)
 (.leaf 1050679012)))))))
 (.node 32 (.node 16 (.node 8 (.node 4 (.node 2 (.node 1 (.leaf 107071286500000000000000000000)
 (.leaf 1054493905))
 (.node 1 (.leaf 861058035961000000000000000000000000000000)
 (.leaf 1037460423)))
 (.node 2 (.node 1 (.leaf 541059012003000000000000000000000000000000)
 (.leaf 631074710942000000000000000000000000000000))
 (.node 1 (.leaf 1049091211)
 (.leaf 591070864231000000000000000000000000000000))))
 (.node 4 (.node 2 (.node 1 (.leaf 411061629598000000000000000000001033385900)
 (.leaf 1024309782))
 (.node 1 (.leaf 501061499285000000000000000000000000000000)
 (.leaf 640991688322000000000000000000000000000000)))
 (.node 2 (.node 1 (.leaf 951060157247000000000000000000001058247921)
 (.leaf 1040393373))
 (.node 1 (.leaf 1034371114)
 (.leaf 1049437814)))))
 (.node 8 (.node 4 (.node 2 (.node 1 (.leaf 1050352711)
 (.leaf 1040674300))
 (.node 1 (.leaf 1050055115)
 (.leaf 1015021913)))
 (.node 2 (.node 1 (.leaf 1041813487)
 (.leaf 811020076583000000000000000000001012186897))
 (.node 1 (.leaf 1024439214)
 (.leaf 1022732140))))
 (.node 4 (.node 2 (.node 1 (.leaf 1011582336)
 (.leaf 631040460180000000000000000000000000000000))
 (.node 1 (.leaf 1009623842)
 (.leaf 1066155501)))
 (.node 2 (.node 1 (.leaf 361065684415000000000000000000001044237365)
 (.leaf 1037832559))
 (.node 1 (.leaf 1050032056)
 (.leaf 1006189642))))))
 (.node 16 (.node 8 (.node 4 (.node 2 (.node 1 (.leaf 1031661888)
 (.leaf 591023362333000000000000000000000000000000))
 (.node 1 (.leaf 711059418203000000000000000000000000000000)
 (.leaf 1032204148)))
 (.node 2 (.node 1 (.leaf 108690357100000000000000000000)
 (.leaf 1035373147))
 (.node 1 (.leaf 1025841346)
 (.leaf 1030889025))))
 (.node 4 (.node 2 (.node 1 (.leaf 1066407384)
 (.leaf 531064494347000000000000000000000000000000))
 (.node 1 (.leaf 1042082176)
 (.leaf 1035860371)))
 (.node 2 (.node 1 (.leaf 521067766456000000000000000000000000000000)
 (.leaf 621082380543000000000000000000000000000000))
 (.node 1 (.leaf 999950944)
 (.leaf 511060494729000000000000000000001041653142)))))
 (.node 8 (.node 4 (.node 2 (.node 1 (.leaf 631042273448000000000000000000001062063799)
 (.leaf 7410421089220811056361241000000000000000000000000000000))
 (.node 1 (.leaf 1042560881)
 (.leaf 109366980100000000000000000000)))
 (.node 2 (.node 1 (.leaf 106774195600000000000000000000)
 (.leaf 771052029279000000000000000000000000000000))
 (.node 1 (.leaf 1049742658)
 (.leaf 601065903352000000000000000000000000000000))))
 (.node 4 (.node 2 (.node 1 (.leaf 601058300458000000000000000000001065876287)
 (.leaf 1039996098))
 (.node 1 (.leaf 4010566829180791057031266000000000000000000001040817465)
 (.leaf 441065118133000000000000000000001064843547)))
 (.node 2 (.node 1 (.leaf 1038356113)
 (.leaf 1004396659))
 (.node 1 (.leaf 1040238777)
 (.leaf 108793667000000000000000000000))))))))
 (.node 64 (.node 32 (.node 16 (.node 8 (.node 4 (.node 2 (.node 1 (.leaf 108737429800000000000000000000)
 (.leaf 108184899400000000000000000000))
 (.node 1 (.leaf 109432138600000000000000000000)
 (.leaf 106729970900000000000000000000)))
 (.node 2 (.node 1 (.leaf 107799111500000000000000000000)
 (.leaf 1012176545))
 (.node 1 (.leaf 1054402193)
 (.leaf 11083522653000000000010835226531008666549))))
 (.node 4 (.node 2 (.node 1 (.leaf 1051050257)
 (.leaf 1049094621))
 (.node 1 (.leaf 1008657562)
 (.leaf 1052798722)))
 (.node 2 (.node 1 (.leaf 381049704162000000000000000000000000000000)
 (.leaf 531084992358000000000000000000001054209459))
 (.node 1 (.leaf 431069984267000000000000000000000000000000)
 (.leaf 381078600656000000000000000000001065207932)))))
 (.node 8 (.node 4 (.node 2 (.node 1 (.leaf 961024330423000000000000000000001038349089)
 (.leaf 1066042588))
 (.node 1 (.leaf 108141962300000000000000000000)
 (.leaf 108369113300000000000000000000)))
 (.node 2 (.node 1 (.leaf 109450027300000000000000000000)
 (.leaf 110102377900000000000000000000))
 (.node 1 (.leaf 1055988786)
 (.leaf 1035676249))))
 (.node 4 (.node 2 (.node 1 (.leaf 1040293427)
 (.leaf 1003349001))
 (.node 1 (.leaf 1027073538)
 (.leaf 1025533770)))
 (.node 2 (.node 1 (.leaf 1055825802)
 (.leaf 741075738723000000000000000000000000000000))
 (.node 1 (.leaf 1059656027)
 (.leaf 4010797168390521085639837000000000000000000000000000000))))))
 (.node 16 (.node 8 (.node 4 (.node 2 (.node 1 (.leaf 581070715465000000000000000000000000000000)
 (.leaf 621090562259000000000000000000001040285164))
 (.node 1 (.leaf 301061471777000000000000000000001060551956)
 (.leaf 108275391500000000000000000000)))
 (.node 2 (.node 1 (.leaf 109082779300000000000000000000)
 (.leaf 1047969571))
 (.node 1 (.leaf 1021755850)
 (.leaf 1001045776097000000000000000000001063358548))))
 (.node 4 (.node 2 (.node 1 (.leaf 921068494575000000000000000000000000000000)
 (.leaf 1048095530))
 (.node 1 (.leaf 1041879869)
 (.leaf 541082512156000000000000000000000000000000)))
 (.node 2 (.node 1 (.leaf 1048119792)
 (.leaf 1019114995))
 (.node 1 (.leaf 1033935676)
 (.leaf 1011860483)))))
 (.node 8 (.node 4 (.node 2 (.node 1 (.leaf 1037566279)
 (.leaf 1032969739))
 (.node 1 (.leaf 108355639100000000000000000000)
 (.leaf 601065081714000000000000000000000000000000)))
 (.node 2 (.node 1 (.leaf 1038374666)
 (.leaf 3110716663550321071766548000000000000000000001047135378))
 (.node 1 (.leaf 1073470370)
 (.leaf 831064610420000000000000000000000000000000))))
 (.node 4 (.node 2 (.node 1 (.leaf 1052407279)
 (.leaf 5310692756580801079378446000000000000000000000000000000))
 (.node 1 (.leaf 107126122900000000000000000000)
 (.leaf 1032014209)))
 (.node 2 (.node 1 (.leaf 1022164600)
 (.leaf 591039999521000000000000000000001041467590))
 (.node 1 (.leaf 581033732697000000000000000000001050113673)
 (.leaf 1032516389)))))))
 (.node 32 (.node 16 (.node 8 (.node 4 (.node 2 (.node 1 (.leaf 998463815)
 (.leaf 107071093600000000000000000000))
 (.node 1 (.leaf 1049007276)
 (.leaf 601032368289000000000000000000001035742272)))
 (.node 2 (.node 1 (.leaf 1410711346070581071203586000000000000000000000000000000)
 (.leaf 1035098680))
 (.node 1 (.leaf 650982995315000000000000000000000000000000)
 (.leaf 651054417419000000000000000000000000000000))))
 (.node 4 (.node 2 (.node 1 (.leaf 1054691121)
 (.leaf 1036304126))
 (.node 1 (.leaf 701077622637000000000000000000000000000000)
 (.leaf 106765572100000000000000000000)))
 (.node 2 (.node 1 (.leaf 108173008600000000000000000000)
 (.leaf 581057062314000000000000000000000000000000))
 (.node 1 (.leaf 108287058000000000001039439027)
 (.leaf 1017900678)))))
 (.node 8 (.node 4 (.node 2 (.node 1 (.leaf 1023982619)
 (.leaf 1039424256))
 (.node 1 (.leaf 711066145968000000000000000000001058753282)
 (.leaf 1054304958)))
 (.node 2 (.node 1 (.leaf 531061484479000000000000000000000000000000)
 (.leaf 1023427007))
 (.node 1 (.leaf 1121051593651000000000000000000000000000000)
 (.leaf 1081045450756000000000000000000000000000000))))
 (.node 4 (.node 2 (.node 1 (.leaf 931045237193000000000000000000001046937589)
 (.leaf 7810413803591111068636406000000000000000000001029222682))
 (.node 1 (.leaf 1031329290)
 (.leaf 1048947314)))
 (.node 2 (.node 1 (.leaf 591068520986000000000000000000001035415118)
 (.leaf 108259883100000000000000000000))
 (.node 1 (.leaf 1015257125)
 (.leaf 109423613700000000000000000000))))))
 (.node 16 (.node 8 (.node 4 (.node 2 (.node 1 (.leaf 3309773268330631029212900000000000000000000000000000000)
 (.leaf 631049068001000000000000000000000000000000))
 (.node 1 (.leaf 871082495722000000000000000000001050319938)
 (.leaf 1111042587384000000000000000000000000000000)))
 (.node 2 (.node 1 (.leaf 99865495100000000000000000000)
 (.leaf 107409909500000000000000000000))
 (.node 1 (.leaf 105852777500000000000000000000)
 (.leaf 1031997480))))
 (.node 4 (.node 2 (.node 1 (.leaf 1012372514)
 (.leaf 5810697546740591070286799000000000000000000001055658359))
 (.node 1 (.leaf 561064487600000000000000000000000000000000)
 (.leaf 581067004647000000000000000000000000000000)))
 (.node 2 (.node 1 (.leaf 109452659300000000001057447693)
 (.leaf 108784445800000000000000000000))
 (.node 1 (.leaf 891035534323000000000000000000000000000000)
 (.leaf 1047201293)))))
 (.node 8 (.node 4 (.node 2 (.node 1 (.leaf 11075836529000000000000000000000000000000)
 (.leaf 108340235500000000000000000000))
 (.node 1 (.leaf 106817581500000000000000000000)
 (.leaf 107818015300000000000000000000)))
 (.node 2 (.node 1 (.leaf 109143952200000000000000000000)
 (.leaf 108491368800000000000000000000))
 (.node 1 (.leaf 1061043463533000000000000000000000000000000)
 (.leaf 1031074063921000000000000000000000000000000))))
 (.node 4 (.node 2 (.node 1 (.leaf 661047621301000000000000000000001030040698)
 (.leaf 1063301613))
 (.node 1 (.leaf 111633551900000000000000000000)
 (.leaf 1052785962)))
 (.node 2 (.node 1 (.leaf 1054022490)
 (.leaf 1039927921))
 (.node 1 (.leaf 1053884172)
 (.leaf 991051414537000000000000000000000000000000)))))))))
 (.node 128 (.node 64 (.node 32 (.node 16 (.node 8 (.node 4 (.node 2 (.node 1 (.leaf 108450885400000000000000000000)
 (.leaf 109185403500000000000000000000))
 (.node 1 (.leaf 108292781100000000000000000000)
 (.leaf 106778473800000000000000000000)))
 (.node 2 (.node 1 (.leaf 110483278400000000000000000000)
 (.leaf 1043131291))
 (.node 1 (.leaf 1011051869462000000000000000000000000000000)
 (.leaf 1036617108))))
 (.node 4 (.node 2 (.node 1 (.leaf 421060413683000000000000000000000000000000)
 (.leaf 1057577627))
 (.node 1 (.leaf 108405935000000000000000000000)
 (.leaf 1065225830)))
 (.node 2 (.node 1 (.leaf 721067987659000000000000000000000000000000)
 (.leaf 1048510013))
 (.node 1 (.leaf 1011316857)
 (.leaf 1060609171)))))
 (.node 8 (.node 4 (.node 2 (.node 1 (.leaf 109124071200000000000000000000)
 (.leaf 1071055786621000000000000000000000000000000))
 (.node 1 (.leaf 1033193337)
 (.leaf 601087473367000000000000000000000000000000)))
 (.node 2 (.node 1 (.leaf 1056528057)
 (.leaf 1030880019))
 (.node 1 (.leaf 1050593614)
 (.leaf 108944928300000000001031978032))))
 (.node 4 (.node 2 (.node 1 (.leaf 11079436559106321943900000000000000000000)
 (.leaf 1057617188))
 (.node 1 (.leaf 1058925839)
 (.leaf 1015255617)))
 (.node 2 (.node 1 (.leaf 1025266561)
 (.leaf 1065420943))
 (.node 1 (.leaf 1036842379)
 (.leaf 1067262585))))))
 (.node 16 (.node 8 (.node 4 (.node 2 (.node 1 (.leaf 1044387357)
 (.leaf 11098600131106695183310986001310000000000))
 (.node 1 (.leaf 1048696725)
 (.leaf 1046785070)))
 (.node 2 (.node 1 (.leaf 851070467798000000000000000000001043555514)
 (.leaf 109321073500000000001045292132))
 (.node 1 (.leaf 1009369650)
 (.leaf 1041991481))))
 (.node 4 (.node 2 (.node 1 (.leaf 851068373756000000000000000000000000000000)
 (.leaf 11083026096000000000010830260960000000000))
 (.node 1 (.leaf 1004338175)
 (.leaf 601061484163000000000000000000001022373459)))
 (.node 2 (.node 1 (.leaf 601066926004000000000000000000000000000000)
 (.leaf 1066448323))
 (.node 1 (.leaf 1033642672)
 (.leaf 1035360942)))))
 (.node 8 (.node 4 (.node 2 (.node 1 (.leaf 1024264550)
 (.leaf 1040886781))
 (.node 1 (.leaf 1024824447)
 (.leaf 1081055208054000000000000000000000000000000)))
 (.node 2 (.node 1 (.leaf 1033696185)
 (.leaf 1042635836))
 (.node 1 (.leaf 801073355197000000000000000000000000000000)
 (.leaf 998780698))))
 (.node 4 (.node 2 (.node 1 (.leaf 991024146306000000000000000000000000000000)
 (.leaf 1052913563))
 (.node 1 (.leaf 691057297757000000000000000000000000000000)
 (.leaf 1019164243)))
 (.node 2 (.node 1 (.leaf 751052890486000000000000000000000000000000)
 (.leaf 781014328436000000000000000000000000000000))
 (.node 1 (.leaf 1057238347)
 (.leaf 1057606843)))))))
 (.node 32 (.node 16 (.node 8 (.node 4 (.node 2 (.node 1 (.leaf 1050046626)
 (.leaf 1029153046))
 (.node 1 (.leaf 921083113495000000000000000000000000000000)
 (.leaf 1032947083)))
 (.node 2 (.node 1 (.leaf 1008927106)
 (.leaf 1041563638))
 (.node 1 (.leaf 110448318900000000001016887867)
 (.leaf 1050910169))))
 (.node 4 (.node 2 (.node 1 (.leaf 1046376611)
 (.leaf 601049873346000000000000000000000000000000))
 (.node 1 (.leaf 1034014347)
 (.leaf 1044812604)))
 (.node 2 (.node 1 (.leaf 1010993616)
 (.leaf 1049496458))
 (.node 1 (.leaf 721055477728000000000000000000001024999566)
 (.leaf 997709809)))))
 (.node 8 (.node 4 (.node 2 (.node 1 (.leaf 1058751390)
 (.leaf 108816224000000000000000000000))
 (.node 1 (.leaf 1038036750)
 (.leaf 1048613156)))
 (.node 2 (.node 1 (.leaf 1030250407)
 (.leaf 1016386743))
 (.node 1 (.leaf 11034020240000000000000000000000000000000)
 (.leaf 531046361163000000000000000000000000000000))))
 (.node 4 (.node 2 (.node 1 (.leaf 1052001101)
 (.leaf 751074983933000000000000000000000000000000))
 (.node 1 (.leaf 1059024273)
 (.leaf 1069428399)))
 (.node 2 (.node 1 (.leaf 1061031967746000000000000000000000000000000)
 (.leaf 761066665328000000000000000000001071935362))
 (.node 1 (.leaf 1040276193)
 (.leaf 1022049763))))))
 (.node 16 (.node 8 (.node 4 (.node 2 (.node 1 (.leaf 1048449041)
 (.leaf 1041150824))
 (.node 1 (.leaf 761038184492000000000000000000000988523160)
 (.leaf 651060754839000000000000000000000000000000)))
 (.node 2 (.node 1 (.leaf 1141057834390000000000000000000000000000000)
 (.leaf 1028172771))
 (.node 1 (.leaf 99864228100000000000000000000)
 (.leaf 1037012601))))
 (.node 4 (.node 2 (.node 1 (.leaf 901022729531000000000000000000000000000000)
 (.leaf 621093701421000000000000000000000000000000))
 (.node 1 (.leaf 1020598628)
 (.leaf 1016934894)))
 (.node 2 (.node 1 (.leaf 1009344414)
 (.leaf 701048950508000000000000000000000000000000))
 (.node 1 (.leaf 751066603162000000000000000000000000000000)
 (.leaf 11067521987000000000000000000000000000000)))))
 (.node 8 (.node 4 (.node 2 (.node 1 (.leaf 711048346423000000000000000000000000000000)
 (.leaf 601065252957000000000000000000000000000000))
 (.node 1 (.leaf 1042402560)
 (.leaf 1038338311)))
 (.node 2 (.node 1 (.leaf 108498142600000000000000000000)
 (.leaf 1051065704905000000000000000000000000000000))
 (.node 1 (.leaf 901072947318000000000000000000001072947154)
 (.leaf 600990196106000000000000000000000000000000))))
 (.node 4 (.node 2 (.node 1 (.leaf 611072130447000000000000000000000000000000)
 (.leaf 1007784954))
 (.node 1 (.leaf 1016391447)
 (.leaf 108221431800000000000000000000)))
 (.node 2 (.node 1 (.leaf 931074365664000000000000000000001074365721)
 (.leaf 1041580372))
 (.node 1 (.leaf 1121030612262000000000000000000000000000000)
 (.leaf 1000870964))))))))
 (.node 64 (.node 32 (.node 16 (.node 8 (.node 4 (.node 2 (.node 1 (.leaf 941052400461000000000000000000000000000000)
 (.leaf 1111054262337109081164500000000000000000000))
 (.node 1 (.leaf 1051019776)
 (.leaf 1050579053)))
 (.node 2 (.node 1 (.leaf 11101035577000000000011010355771054842211)
 (.leaf 691060539397000000000000000000000000000000))
 (.node 1 (.leaf 1052635527)
 (.leaf 1023988008))))
 (.node 4 (.node 2 (.node 1 (.leaf 1040804956)
 (.leaf 1056165511))
 (.node 1 (.leaf 1048588090)
 (.leaf 1062391834)))
 (.node 2 (.node 1 (.leaf 821077142656000000000000000000000000000000)
 (.leaf 1101035960779000000000000000000000000000000))
 (.node 1 (.leaf 1028875081)
 (.leaf 1018204716)))))
 (.node 8 (.node 4 (.node 2 (.node 1 (.leaf 1051675076)
 (.leaf 1091068919155000000000000000000000000000000))
 (.node 1 (.leaf 721065200600000000000000000000000000000000)
 (.leaf 1111023074947000000000000000000001041974718)))
 (.node 2 (.node 1 (.leaf 1101026881055000000000000000000000000000000)
 (.leaf 951045962334000000000000000000001040712057))
 (.node 1 (.leaf 1049707549)
 (.leaf 1058818630))))
 (.node 4 (.node 2 (.node 1 (.leaf 108464269400000000000000000000)
 (.leaf 781053615630000000000000000000001028187256))
 (.node 1 (.leaf 1045483181)
 (.leaf 1061581745)))
 (.node 2 (.node 1 (.leaf 1057071756)
 (.leaf 851074353636000000000000000000000000000000))
 (.node 1 (.leaf 551099503260000000000000000000000000000000)
 (.leaf 108604455600000000000000000000))))))
 (.node 16 (.node 8 (.node 4 (.node 2 (.node 1 (.leaf 1048261922)
 (.leaf 1053021685))
 (.node 1 (.leaf 1040335435)
 (.leaf 1051437121)))
 (.node 2 (.node 1 (.leaf 1001654745)
 (.leaf 1044797045))
 (.node 1 (.leaf 1029322877)
 (.leaf 1101093790956000000000000000000000000000000))))
 (.node 4 (.node 2 (.node 1 (.leaf 641090208560000000000000000000000000000000)
 (.leaf 1021710631))
 (.node 1 (.leaf 1052917648)
 (.leaf 921068201241000000000000000000001068201298)))
 (.node 2 (.node 1 (.leaf 1069975437)
 (.leaf 1060096707))
 (.node 1 (.leaf 108638024800000000000000000000)
 (.leaf 661075433260000000000000000000000000000000)))))
 (.node 8 (.node 4 (.node 2 (.node 1 (.leaf 831065521511000000000000000000000000000000)
 (.leaf 881041666189000000000000000000000000000000))
 (.node 1 (.leaf 771067208585000000000000000000000000000000)
 (.leaf 1052085175)))
 (.node 2 (.node 1 (.leaf 1046152367)
 (.leaf 741073465189000000000000000000000000000000))
 (.node 1 (.leaf 109138412600000000000000000000)
 (.leaf 108143891700000000000000000000))))
 (.node 4 (.node 2 (.node 1 (.leaf 108496920000000000000000000000)
 (.leaf 731069440416000000000000000000000000000000))
 (.node 1 (.leaf 1059464360)
 (.leaf 1032308310)))
 (.node 2 (.node 1 (.leaf 851071023928000000000000000000000000000000)
 (.leaf 11063467864000000000010634678640000000000))
 (.node 1 (.leaf 110717000330841077654258000000000010717000330000000000)
 (.leaf 1058026954)))))))
 (.node 32 (.node 16 (.node 8 (.node 4 (.node 2 (.node 1 (.leaf 1151069089390000000000000000000000000000000)
 (.leaf 731074283405000000000000000000000000000000))
 (.node 1 (.leaf 96289348100000000000000000000)
 (.leaf 108790456300000000000000000000)))
 (.node 2 (.node 1 (.leaf 1041572050)
 (.leaf 101106967123710610761469681081081187126000000000000000000000000000000))
 (.node 1 (.leaf 531078950772000000000000000000001038145431)
 (.leaf 101067947853000000000000000000000000000000))))
 (.node 4 (.node 2 (.node 1 (.leaf 1000144187)
 (.leaf 107475374200000000000000000000))
 (.node 1 (.leaf 1054513234)
 (.leaf 1070879124)))
 (.node 2 (.node 1 (.leaf 1060104175)
 (.leaf 3110510453290831069101551000000000000000000000000000000))
 (.node 1 (.leaf 110621868700000000000000000000)
 (.leaf 1039299224)))))
 (.node 8 (.node 4 (.node 2 (.node 1 (.leaf 1054574151)
 (.leaf 1023426410))
 (.node 1 (.leaf 1053034253)
 (.leaf 1044386658)))
 (.node 2 (.node 1 (.leaf 111248673300000000000000000000)
 (.leaf 108306332900000000000000000000))
 (.node 1 (.leaf 111031958900000000000000000000)
 (.leaf 1091070502524000000000000000000001053696083))))
 (.node 4 (.node 2 (.node 1 (.leaf 1171082786339000000000000000000000000000000)
 (.leaf 741057664375000000000000000000000000000000))
 (.node 1 (.leaf 661009176193000000000000000000000000000000)
 (.leaf 551064696216000000000000000000000000000000)))
 (.node 2 (.node 1 (.leaf 109745327300000000000000000000)
 (.leaf 991064808798000000000000000000000000000000))
 (.node 1 (.leaf 1077875936)
 (.leaf 1040928131))))))
 (.node 16 (.node 8 (.node 4 (.node 2 (.node 1 (.leaf 1048002364)
 (.leaf 1056759645))
 (.node 1 (.leaf 109434372100000000000000000000)
 (.leaf 1036586604)))
 (.node 2 (.node 1 (.leaf 671059861221000000000000000000001053355897)
 (.leaf 1045490278))
 (.node 1 (.leaf 1036154825)
 (.leaf 1035421931))))
 (.node 4 (.node 2 (.node 1 (.leaf 1024753605)
 (.leaf 1033864891))
 (.node 1 (.leaf 731081103897000000000000000000000000000000)
 (.leaf 109196193300000000000000000000)))
 (.node 2 (.node 1 (.leaf 1049634968)
 (.leaf 571083729360000000000000000000000000000000))
 (.node 1 (.leaf 1055920876)
 (.leaf 1054463114)))))
 (.node 8 (.node 4 (.node 2 (.node 1 (.leaf 1045212234)
 (.leaf 1151057146896000000000000000000000000000000))
 (.node 1 (.leaf 1025547455)
 (.leaf 881076095004000000000000000000000000000000)))
 (.node 2 (.node 1 (.leaf 881047421175000000000000000000000000000000)
 (.leaf 1028005757))
 (.node 1 (.leaf 1022560693)
 (.leaf 1067632837))))
 (.node 4 (.node 2 (.node 1 (.leaf 1062473758)
 (.leaf 102287937200000000000000000000))
 (.node 1 (.leaf 1001067115185000000000000000000000000000000)
 (.leaf 831056615963000000000000000000000000000000)))
 (.node 2 (.node 1 (.leaf 1121084285869000000000000000000000000000000)
 (.leaf 110165801000000000000000000000))
 (.node 1 (.leaf 11033448802000000000000000000001062578536)
 (.leaf 107991567200000000000000000000)))))))))))
 (.node 512 (.node 256 (.node 128 (.node 64 (.node 32 (.node 16 (.node 8 (.node 4 (.node 2 (.node 1 (.leaf 1051595904)
 (.leaf 561060716276106278209100000000000000000000))
 (.node 1 (.leaf 109517073300000000000000000000)
 (.leaf 107584912600000000000000000000)))
 (.node 2 (.node 1 (.leaf 651083803211000000000000000000000000000000)
 (.leaf 108881925600000000000000000000))
 (.node 1 (.leaf 711053041748000000000000000000000000000000)
 (.leaf 106841338000000000000000000000))))
 (.node 4 (.node 2 (.node 1 (.leaf 1062222726)
 (.leaf 811068231545000000000000000000000000000000))
 (.node 1 (.leaf 941011411323000000000000000000000000000000)
 (.leaf 781075290683000000000000000000001058390687)))
 (.node 2 (.node 1 (.leaf 851087288654000000000000000000000000000000)
 (.leaf 7610494313050891050759183000000000000000000000000000000))
 (.node 1 (.leaf 941064738155000000000000000000000000000000)
 (.leaf 651057779288000000000000000000000000000000)))))
 (.node 8 (.node 4 (.node 2 (.node 1 (.leaf 851058509452000000000000000000000000000000)
 (.leaf 105493191400000000000000000000))
 (.node 1 (.leaf 11110839984441151089104756000000000000000000000000000000)
 (.leaf 1151074949614000000000000000000000000000000)))
 (.node 2 (.node 1 (.leaf 1111066917310000000000000000000000000000000)
 (.leaf 105853079500000000000000000000))
 (.node 1 (.leaf 100510068700000000000000000000)
 (.leaf 110208818900000000000000000000))))
 (.node 4 (.node 2 (.node 1 (.leaf 107266950800000000000000000000)
 (.leaf 911049496358000000000000000000000000000000))
 (.node 1 (.leaf 851074502966000000000000000000000000000000)
 (.leaf 1035353520)))
 (.node 2 (.node 1 (.leaf 11103313834000000000011033138340000000000)
 (.leaf 11101900840000000000011019008400000000000))
 (.node 1 (.leaf 108026270800000000000000000000)
 (.leaf 801066857110000000000000000000000000000000))))))
 (.node 16 (.node 8 (.node 4 (.node 2 (.node 1 (.leaf 107880304900000000000000000000)
 (.leaf 871096821756000000000000000000000000000000))
 (.node 1 (.leaf 11077331023000000000010773310230000000000)
 (.leaf 108012895200000000000000000000)))
 (.node 2 (.node 1 (.leaf 11103158294000000000011031582940000000000)
 (.leaf 11116762433000000000011167624330000000000))
 (.node 1 (.leaf 108065676300000000000000000000)
 (.leaf 1045893626))))
 (.node 4 (.node 2 (.node 1 (.leaf 106992442000000000001051996116)
 (.leaf 108500571100000000000000000000))
 (.node 1 (.leaf 107303449700000000000000000000)
 (.leaf 109310283600000000000000000000)))
 (.node 2 (.node 1 (.leaf 107629921700000000000000000000)
 (.leaf 1043418445))
 (.node 1 (.leaf 11049012691000000000010490126910000000000)
 (.leaf 1036586522)))))
 (.node 8 (.node 4 (.node 2 (.node 1 (.leaf 106961286700000000000000000000)
 (.leaf 1055148705))
 (.node 1 (.leaf 108374943300000000000000000000)
 (.leaf 581068517941000000000000000000001053610028)))
 (.node 2 (.node 1 (.leaf 751061224708000000000000000000001053145865)
 (.leaf 811074206838000000000000000000000000000000))
 (.node 1 (.leaf 1032835148)
 (.leaf 1039434413))))
 (.node 4 (.node 2 (.node 1 (.leaf 1049936801)
 (.leaf 106958090700000000000000000000))
 (.node 1 (.leaf 106875672600000000000000000000)
 (.leaf 8610650579220881084183021000000000000000000000000000000)))
 (.node 2 (.node 1 (.leaf 1111059407350000000000000000000000000000000)
 (.leaf 421058033609000000000000000000001047282961))
 (.node 1 (.leaf 561043062512000000000000000000001019298716)
 (.leaf 591043297148000000000000000000000000000000)))))))
 (.node 32 (.node 16 (.node 8 (.node 4 (.node 2 (.node 1 (.leaf 1035578691)
 (.leaf 1035422363))
 (.node 1 (.leaf 581033348095000000000000000000000000000000)
 (.leaf 107802664100000000000000000000)))
 (.node 2 (.node 1 (.leaf 105290079700000000000000000000)
 (.leaf 111087570100000000000000000000))
 (.node 1 (.leaf 1055294852)
 (.leaf 109476944300000000000000000000))))
 (.node 4 (.node 2 (.node 1 (.leaf 1043310770)
 (.leaf 1052659876))
 (.node 1 (.leaf 531049227603000000000000000000000000000000)
 (.leaf 109386252900000000000000000000)))
 (.node 2 (.node 1 (.leaf 11079742783000000000010797427831042835120)
 (.leaf 1021015927526000000000000000000000000000000))
 (.node 1 (.leaf 1040893436)
 (.leaf 106541621400000000000000000000)))))
 (.node 8 (.node 4 (.node 2 (.node 1 (.leaf 1060932503)
 (.leaf 1059131206))
 (.node 1 (.leaf 1042044204)
 (.leaf 741077190875000000000000000000000000000000)))
 (.node 2 (.node 1 (.leaf 740999579654000000000000000000000000000000)
 (.leaf 109542008400000000000000000000))
 (.node 1 (.leaf 1044302834)
 (.leaf 501024921823000000000000000000000000000000))))
 (.node 4 (.node 2 (.node 1 (.leaf 981095689952000000000000000000000000000000)
 (.leaf 110691966000000000000000000000))
 (.node 1 (.leaf 1051070758791000000000000000000000000000000)
 (.leaf 1058907941)))
 (.node 2 (.node 1 (.leaf 107360290900000000000000000000)
 (.leaf 110275057400000000000000000000))
 (.node 1 (.leaf 106682197700000000000000000000)
 (.leaf 107613815600000000000000000000))))))
 (.node 16 (.node 8 (.node 4 (.node 2 (.node 1 (.leaf 771065386700000000000000000000000000000000)
 (.leaf 103593510600000000000000000000))
 (.node 1 (.leaf 1061046915440000000000000000000000000000000)
 (.leaf 1050150865)))
 (.node 2 (.node 1 (.leaf 108088841500000000000000000000)
 (.leaf 1052278213))
 (.node 1 (.leaf 1057102110)
 (.leaf 1063484454))))
 (.node 4 (.node 2 (.node 1 (.leaf 109158767500000000000000000000)
 (.leaf 1024843998))
 (.node 1 (.leaf 621054233277000000000000000000000000000000)
 (.leaf 1042663457)))
 (.node 2 (.node 1 (.leaf 1064223808)
 (.leaf 1057432694))
 (.node 1 (.leaf 108724920300000000000000000000)
 (.leaf 941084173168000000000000000000000000000000)))))
 (.node 8 (.node 4 (.node 2 (.node 1 (.leaf 1014312152)
 (.leaf 1061266770))
 (.node 1 (.leaf 1037923743)
 (.leaf 1034545800)))
 (.node 2 (.node 1 (.leaf 1056488543)
 (.leaf 1057157771))
 (.node 1 (.leaf 1055515701)
 (.leaf 1042446367))))
 (.node 4 (.node 2 (.node 1 (.leaf 601068384936000000000000000000001043679484)
 (.leaf 601070213128000000000000000000001014479945))
 (.node 1 (.leaf 1050886744)
 (.leaf 1019738991)))
 (.node 2 (.node 1 (.leaf 1033081715)
 (.leaf 990989958184000000000000000000000000000000))
 (.node 1 (.leaf 601058860752000000000000000000000000000000)
 (.leaf 1051837899))))))))
 (.node 64 (.node 32 (.node 16 (.node 8 (.node 4 (.node 2 (.node 1 (.leaf 1057353970)
 (.leaf 1040960057))
 (.node 1 (.leaf 1065773510)
 (.leaf 1042626169)))
 (.node 2 (.node 1 (.leaf 661064364101000000000000000000000000000000)
 (.leaf 970488636))
 (.node 1 (.leaf 107188089500000000000000000000)
 (.leaf 107269568100000000000000000000))))
 (.node 4 (.node 2 (.node 1 (.leaf 1042095761)
 (.leaf 7110001313470751074463175000000000000000000001052657432))
 (.node 1 (.leaf 1009062042)
 (.leaf 711068025875000000000000000000000000000000)))
 (.node 2 (.node 1 (.leaf 1039816132)
 (.leaf 1036079127))
 (.node 1 (.leaf 1059635593)
 (.leaf 1015042635)))))
 (.node 8 (.node 4 (.node 2 (.node 1 (.leaf 721095080371000000000000000000000000000000)
 (.leaf 1043396875))
 (.node 1 (.leaf 1051788284)
 (.leaf 1037412197)))
 (.node 2 (.node 1 (.leaf 1033766805)
 (.leaf 1049676447))
 (.node 1 (.leaf 1041247971)
 (.leaf 1048811403))))
 (.node 4 (.node 2 (.node 1 (.leaf 1058264867)
 (.leaf 1042535188))
 (.node 1 (.leaf 1050696872)
 (.leaf 1042036350)))
 (.node 2 (.node 1 (.leaf 1018826396)
 (.leaf 1017343365))
 (.node 1 (.leaf 851050697494000000000000000000001014583488)
 (.leaf 851078875397000000000000000000001071428082))))))
 (.node 16 (.node 8 (.node 4 (.node 2 (.node 1 (.leaf 721082787507000000000000000000000000000000)
 (.leaf 10010263771071021074135508000000000000000000000000000000))
 (.node 1 (.leaf 1048687357)
 (.leaf 1033894510)))
 (.node 2 (.node 1 (.leaf 840984900777107891415600000000000000000000)
 (.leaf 1039502190))
 (.node 1 (.leaf 109456570400000000000000000000)
 (.leaf 108796535900000000000000000000))))
 (.node 4 (.node 2 (.node 1 (.leaf 1062326232)
 (.leaf 851048774475000000000000000000000998170794))
 (.node 1 (.leaf 1053685356)
 (.leaf 731086473887000000000000000000000000000000)))
 (.node 2 (.node 1 (.leaf 1033662597)
 (.leaf 1001342553))
 (.node 1 (.leaf 1014793154)
 (.leaf 1041771468)))))
 (.node 8 (.node 4 (.node 2 (.node 1 (.leaf 1028377517)
 (.leaf 107265046600000000000000000000))
 (.node 1 (.leaf 971040821520000000000000000000000000000000)
 (.leaf 1049733204)))
 (.node 2 (.node 1 (.leaf 1016852774)
 (.leaf 1032171457))
 (.node 1 (.leaf 108183033000000000000000000000)
 (.leaf 761066344605000000000000000000000000000000))))
 (.node 4 (.node 2 (.node 1 (.leaf 761049594118000000000000000000000000000000)
 (.leaf 107068291800000000000000000000))
 (.node 1 (.leaf 1042577115)
 (.leaf 791051690759000000000000000000000000000000)))
 (.node 2 (.node 1 (.leaf 1016776080)
 (.leaf 1068223067))
 (.node 1 (.leaf 1040027527)
 (.leaf 1058423052)))))))
 (.node 32 (.node 16 (.node 8 (.node 4 (.node 2 (.node 1 (.leaf 1050980158)
 (.leaf 1048624930))
 (.node 1 (.leaf 1065081061)
 (.leaf 361066455995000000000000000000001050182707)))
 (.node 2 (.node 1 (.leaf 1050301894)
 (.leaf 1038738306))
 (.node 1 (.leaf 1033365100)
 (.leaf 102867846300000000000000000000))))
 (.node 4 (.node 2 (.node 1 (.leaf 1033369526)
 (.leaf 1049201359))
 (.node 1 (.leaf 1042158883)
 (.leaf 1043376225)))
 (.node 2 (.node 1 (.leaf 1028565695)
 (.leaf 107537860900000000000000000000))
 (.node 1 (.leaf 1045060511)
 (.leaf 1025370023)))))
 (.node 8 (.node 4 (.node 2 (.node 1 (.leaf 711065516167000000000000000000001041084720)
 (.leaf 601042670472000000000000000000001044265686))
 (.node 1 (.leaf 711036814198000000000000000000000000000000)
 (.leaf 1065953825)))
 (.node 2 (.node 1 (.leaf 1051607518)
 (.leaf 108577016500000000000000000000))
 (.node 1 (.leaf 401067908910000000000000000000000000000000)
 (.leaf 1034675951))))
 (.node 4 (.node 2 (.node 1 (.leaf 1051277366)
 (.leaf 551068105628000000000000000000000000000000))
 (.node 1 (.leaf 106118604100000000000000000000)
 (.leaf 1030466796)))
 (.node 2 (.node 1 (.leaf 1062933599)
 (.leaf 1041065951666000000000000000000000000000000))
 (.node 1 (.leaf 106111933500000000000000000000)
 (.leaf 1033361407))))))
 (.node 16 (.node 8 (.node 4 (.node 2 (.node 1 (.leaf 1040315266)
 (.leaf 110197620100000000001029718023))
 (.node 1 (.leaf 108800744900000000000000000000)
 (.leaf 109180106000000000000000000000)))
 (.node 2 (.node 1 (.leaf 1038665362)
 (.leaf 109876493700000000000000000000))
 (.node 1 (.leaf 108948113900000000000000000000)
 (.leaf 105921710000000000000000000000))))
 (.node 4 (.node 2 (.node 1 (.leaf 109023080700000000000000000000)
 (.leaf 1051196471))
 (.node 1 (.leaf 811059834534000000000000000000000000000000)
 (.leaf 741047830115000000000000000000001034192962)))
 (.node 2 (.node 1 (.leaf 1047591930)
 (.leaf 761078355728000000000000000000000000000000))
 (.node 1 (.leaf 108399199000000000000000000000)
 (.leaf 110853787970651089646144000000000010853787971044160374)))))
 (.node 8 (.node 4 (.node 2 (.node 1 (.leaf 11076715326108499493210767153261052435690)
 (.leaf 108914544700000000000000000000))
 (.node 1 (.leaf 1046650386)
 (.leaf 1076319256)))
 (.node 2 (.node 1 (.leaf 1012533160)
 (.leaf 110077699700000000000000000000))
 (.node 1 (.leaf 109093741100000000000000000000)
 (.leaf 108683698600000000000000000000))))
 (.node 4 (.node 2 (.node 1 (.leaf 110084227100000000000000000000)
 (.leaf 110341720600000000000000000000))
 (.node 1 (.leaf 109975809600000000000000000000)
 (.leaf 107865083700000000000000000000)))
 (.node 2 (.node 1 (.leaf 103625144400000000000000000000)
 (.leaf 106188791600000000000000000000))
 (.node 1 (.leaf 109420960800000000000000000000)
 (.leaf 112037134300000000000000000000)))))))))
 (.node 128 (.node 64 (.node 32 (.node 16 (.node 8 (.node 4 (.node 2 (.node 1 (.leaf 112040345600000000000000000000)
 (.leaf 112040345600000000000000000000))
 (.node 1 (.leaf 112040345600000000000000000000)
 (.leaf 112039247200000000000000000000)))
 (.node 2 (.node 1 (.leaf 112040345600000000000000000000)
 (.leaf 112040345600000000000000000000))
 (.node 1 (.leaf 112040345600000000000000000000)
 (.leaf 112040345600000000000000000000))))
 (.node 4 (.node 2 (.node 1 (.leaf 11120403456000000000011204034560000000000)
 (.leaf 108380008000000000000000000000))
 (.node 1 (.leaf 107898688500000000000000000000)
 (.leaf 111073993700000000000000000000)))
 (.node 2 (.node 1 (.leaf 103694603400000000000000000000)
 (.leaf 110350235100000000000000000000))
 (.node 1 (.leaf 108718035300000000000000000000)
 (.leaf 109020075500000000000000000000)))))
 (.node 8 (.node 4 (.node 2 (.node 1 (.leaf 109661787300000000000000000000)
 (.leaf 108928176200000000000000000000))
 (.node 1 (.leaf 109520502100000000000000000000)
 (.leaf 110174231600000000000000000000)))
 (.node 2 (.node 1 (.leaf 108133942800000000000000000000)
 (.leaf 108731857600000000000000000000))
 (.node 1 (.leaf 108673292600000000000000000000)
 (.leaf 108592181000000000000000000000))))
 (.node 4 (.node 2 (.node 1 (.leaf 108639668900000000000000000000)
 (.leaf 107760825900000000000000000000))
 (.node 1 (.leaf 109361349300000000000000000000)
 (.leaf 106293726300000000000000000000)))
 (.node 2 (.node 1 (.leaf 109465514800000000000000000000)
 (.leaf 109349510800000000000000000000))
 (.node 1 (.leaf 109989095000000000000000000000)
 (.leaf 105981339600000000000000000000))))))
 (.node 16 (.node 8 (.node 4 (.node 2 (.node 1 (.leaf 108455379600000000000000000000)
 (.leaf 109282297100000000000000000000))
 (.node 1 (.leaf 108276576400000000000000000000)
 (.leaf 110786348300000000000000000000)))
 (.node 2 (.node 1 (.leaf 109110080000000000000000000000)
 (.leaf 108094432500000000000000000000))
 (.node 1 (.leaf 108394063100000000000000000000)
 (.leaf 109071285900000000000000000000))))
 (.node 4 (.node 2 (.node 1 (.leaf 671089736672000000000000000000000000000000)
 (.leaf 671092190274000000000000000000000000000000))
 (.node 1 (.leaf 11084168280107605196310841682800000000000)
 (.leaf 105390501400000000000000000000)))
 (.node 2 (.node 1 (.leaf 109568359100000000000000000000)
 (.leaf 108996201500000000000000000000))
 (.node 1 (.leaf 721093743775000000000000000000000000000000)
 (.leaf 11092239068000000000010922390680000000000)))))
 (.node 8 (.node 4 (.node 2 (.node 1 (.leaf 11106256830000000000011062568300000000000)
 (.leaf 109426811900000000000000000000))
 (.node 1 (.leaf 110065085300000000000000000000)
 (.leaf 109517188600000000000000000000)))
 (.node 2 (.node 1 (.leaf 105832240500000000000000000000)
 (.leaf 701064159943000000000000000000000000000000))
 (.node 1 (.leaf 891101651020000000000000000000000000000000)
 (.leaf 111752548200000000000000000000))))
 (.node 4 (.node 2 (.node 1 (.leaf 105382733600000000000000000000)
 (.leaf 108294219800000000000000000000))
 (.node 1 (.leaf 11072654456000000000010726544560000000000)
 (.leaf 601086236027000000000000000000000000000000)))
 (.node 2 (.node 1 (.leaf 108368054200000000000000000000)
 (.leaf 108239798700000000000000000000))
 (.node 1 (.leaf 111076843200000000000000000000)
 (.leaf 109067311800000000000000000000)))))))
 (.node 32 (.node 16 (.node 8 (.node 4 (.node 2 (.node 1 (.leaf 110888809900000000000000000000)
 (.leaf 681067066683000000000000000000000000000000))
 (.node 1 (.leaf 851071373506109276676800000000000000000000)
 (.leaf 110188843500000000000000000000)))
 (.node 2 (.node 1 (.leaf 109402117900000000000000000000)
 (.leaf 631025660938000000000000000000000000000000))
 (.node 1 (.leaf 631068147951000000000000000000000000000000)
 (.leaf 107769839500000000000000000000))))
 (.node 4 (.node 2 (.node 1 (.leaf 108496368400000000000000000000)
 (.leaf 107300807200000000000000000000))
 (.node 1 (.leaf 631064295603000000000000000000000000000000)
 (.leaf 109502655400000000000000000000)))
 (.node 2 (.node 1 (.leaf 108931261100000000000000000000)
 (.leaf 109764484800000000000000000000))
 (.node 1 (.leaf 108056289500000000000000000000)
 (.leaf 108260852000000000000000000000)))))
 (.node 8 (.node 4 (.node 2 (.node 1 (.leaf 109642178900000000000000000000)
 (.leaf 108977404800000000000000000000))
 (.node 1 (.leaf 720963910497000000000000000000000000000000)
 (.leaf 108179165800000000000000000000)))
 (.node 2 (.node 1 (.leaf 691082880865106232472700000000000000000000)
 (.leaf 108869483200000000000000000000))
 (.node 1 (.leaf 109380905200000000000000000000)
 (.leaf 109598002400000000000000000000))))
 (.node 4 (.node 2 (.node 1 (.leaf 107139326500000000000000000000)
 (.leaf 108697105700000000000000000000))
 (.node 1 (.leaf 109247332400000000000000000000)
 (.leaf 108724177900000000000000000000)))
 (.node 2 (.node 1 (.leaf 561065207589000000000000000000000000000000)
 (.leaf 106246933000000000000000000000))
 (.node 1 (.leaf 109320370900000000000000000000)
 (.leaf 109150246800000000000000000000))))))
 (.node 16 (.node 8 (.node 4 (.node 2 (.node 1 (.leaf 661078835431107162395200000000000000000000)
 (.leaf 109335155800000000000000000000))
 (.node 1 (.leaf 111044798700000000000000000000)
 (.leaf 105633875100000000000000000000)))
 (.node 2 (.node 1 (.leaf 105513928000000000000000000000)
 (.leaf 110517152600000000000000000000))
 (.node 1 (.leaf 104997236800000000000000000000)
 (.leaf 109598149200000000000000000000))))
 (.node 4 (.node 2 (.node 1 (.leaf 11091580230000000000010915802300000000000)
 (.leaf 107694375600000000000000000000))
 (.node 1 (.leaf 109356683100000000000000000000)
 (.leaf 109510289000000000000000000000)))
 (.node 2 (.node 1 (.leaf 11112799513000000000011127995130000000000)
 (.leaf 110170273200000000000000000000))
 (.node 1 (.leaf 108939454700000000000000000000)
 (.leaf 109167872300000000000000000000)))))
 (.node 8 (.node 4 (.node 2 (.node 1 (.leaf 911041428661000000000000000000000000000000)
 (.leaf 100501193200000000000000000000))
 (.node 1 (.leaf 108839619800000000000000000000)
 (.leaf 108796519100000000000000000000)))
 (.node 2 (.node 1 (.leaf 105805539500000000000000000000)
 (.leaf 109780632900000000000000000000))
 (.node 1 (.leaf 104101685800000000000000000000)
 (.leaf 741074407461000000000000000000000000000000))))
 (.node 4 (.node 2 (.node 1 (.leaf 10991656513110044507009916565130000000000)
 (.leaf 110321168500000000000000000000))
 (.node 1 (.leaf 110396839000000000000000000000)
 (.leaf 106656998400000000000000000000)))
 (.node 2 (.node 1 (.leaf 106673951700000000000000000000)
 (.leaf 109420331700000000000000000000))
 (.node 1 (.leaf 109941998200000000000000000000)
 (.leaf 107283501500000000000000000000))))))))
 (.node 64 (.node 32 (.node 16 (.node 8 (.node 4 (.node 2 (.node 1 (.leaf 109455301700000000000000000000)
 (.leaf 105627768200000000000000000000))
 (.node 1 (.leaf 109950182400000000000000000000)
 (.leaf 111033479300000000000000000000)))
 (.node 2 (.node 1 (.leaf 11116161341000000000011161613410000000000)
 (.leaf 99580038700000000000000000000))
 (.node 1 (.leaf 106990244200000000000000000000)
 (.leaf 110356316800000000000000000000))))
 (.node 4 (.node 2 (.node 1 (.leaf 108449893400000000000000000000)
 (.leaf 109990012500000000000000000000))
 (.node 1 (.leaf 109978719400000000000000000000)
 (.leaf 106416163100000000000000000000)))
 (.node 2 (.node 1 (.leaf 109314498900000000000000000000)
 (.leaf 109461865800000000000000000000))
 (.node 1 (.leaf 106756680200000000000000000000)
 (.leaf 109619152200000000000000000000)))))
 (.node 8 (.node 4 (.node 2 (.node 1 (.leaf 108344492700000000000000000000)
 (.leaf 108961416100000000000000000000))
 (.node 1 (.leaf 109952667500000000000000000000)
 (.leaf 109960699600000000000000000000)))
 (.node 2 (.node 1 (.leaf 110031158600000000000000000000)
 (.leaf 108293034900000000000000000000))
 (.node 1 (.leaf 109264974600000000000000000000)
 (.leaf 110215802400000000000000000000))))
 (.node 4 (.node 2 (.node 1 (.leaf 108774446600000000000000000000)
 (.leaf 1009808303))
 (.node 1 (.leaf 103857382600000000000000000000)
 (.leaf 108282555400000000000000000000)))
 (.node 2 (.node 1 (.leaf 109909822700000000000000000000)
 (.leaf 11090075997107827460810900759970000000000))
 (.node 1 (.leaf 110229764200000000000000000000)
 (.leaf 541023257677000000000000000000000000000000))))))
 (.node 16 (.node 8 (.node 4 (.node 2 (.node 1 (.leaf 1131063986550000000000000000000000000000000)
 (.leaf 109977969600000000000000000000))
 (.node 1 (.leaf 109093868000000000000000000000)
 (.leaf 109062469500000000000000000000)))
 (.node 2 (.node 1 (.leaf 106542955200000000000000000000)
 (.leaf 1052132562))
 (.node 1 (.leaf 110825478600000000000000000000)
 (.leaf 1131026580857000000000000000000000000000000))))
 (.node 4 (.node 2 (.node 1 (.leaf 109346344100000000000000000000)
 (.leaf 1051159183))
 (.node 1 (.leaf 105839258400000000000000000000)
 (.leaf 109914918700000000000000000000)))
 (.node 2 (.node 1 (.leaf 106850448000000000000000000000)
 (.leaf 109732471800000000000000000000))
 (.node 1 (.leaf 551069273919000000000000000000000000000000)
 (.leaf 109679392800000000000000000000)))))
 (.node 8 (.node 4 (.node 2 (.node 1 (.leaf 108521637000000000000000000000)
 (.leaf 631083329109000000000000000000000000000000))
 (.node 1 (.leaf 108383715700000000000000000000)
 (.leaf 11026540956108983975110265409560000000000)))
 (.node 2 (.node 1 (.leaf 109210333300000000000000000000)
 (.leaf 108556527300000000000000000000))
 (.node 1 (.leaf 110703306300000000000000000000)
 (.leaf 231036718063000000000000000000000000000000))))
 (.node 4 (.node 2 (.node 1 (.leaf 671068827439000000000000000000000000000000)
 (.leaf 104127710600000000000000000000))
 (.node 1 (.leaf 109716638300000000001029150287)
 (.leaf 109230328600000000000000000000)))
 (.node 2 (.node 1 (.leaf 105454275000000000000000000000)
 (.leaf 108899281700000000000000000000))
 (.node 1 (.leaf 601064106805000000000000000000000000000000)
 (.leaf 107504931400000000000000000000)))))))
 (.node 32 (.node 16 (.node 8 (.node 4 (.node 2 (.node 1 (.leaf 110340362700000000000000000000)
 (.leaf 106788632400000000000000000000))
 (.node 1 (.leaf 107651040000000000000000000000)
 (.leaf 1045676901)))
 (.node 2 (.node 1 (.leaf 109178422000000000000000000000)
 (.leaf 107871366800000000000000000000))
 (.node 1 (.leaf 108525919400000000000000000000)
 (.leaf 108347539800000000000000000000))))
 (.node 4 (.node 2 (.node 1 (.leaf 107809752500000000000000000000)
 (.leaf 108704487700000000000000000000))
 (.node 1 (.leaf 109136976000000000000000000000)
 (.leaf 105917700300000000000000000000)))
 (.node 2 (.node 1 (.leaf 109884368500000000000000000000)
 (.leaf 108841888900000000000000000000))
 (.node 1 (.leaf 108499990200000000000000000000)
 (.leaf 109450950100000000000000000000)))))
 (.node 8 (.node 4 (.node 2 (.node 1 (.leaf 941074509993106352493600000000000000000000)
 (.leaf 992013282))
 (.node 1 (.leaf 551083163949000000000000000000000000000000)
 (.leaf 781069939937000000000000000000000000000000)))
 (.node 2 (.node 1 (.leaf 108328772400000000000000000000)
 (.leaf 110070155200000000000000000000))
 (.node 1 (.leaf 103569799700000000000000000000)
 (.leaf 109005179500000000000000000000))))
 (.node 4 (.node 2 (.node 1 (.leaf 941110421674000000000000000000000000000000)
 (.leaf 811087516639000000000000000000000000000000))
 (.node 1 (.leaf 741040704568000000000000000000000000000000)
 (.leaf 103953308100000000000000000000)))
 (.node 2 (.node 1 (.leaf 521091142705107384789800000000000000000000)
 (.leaf 521061851107107930556800000000000000000000))
 (.node 1 (.leaf 109074958000000000000000000000)
 (.leaf 110282439400000000000000000000))))))
 (.node 16 (.node 8 (.node 4 (.node 2 (.node 1 (.leaf 109983605700000000000000000000)
 (.leaf 811084145925000000000000000000000000000000))
 (.node 1 (.leaf 711103432699000000000000000000000000000000)
 (.leaf 103392382600000000000000000000)))
 (.node 2 (.node 1 (.leaf 105704985300000000000000000000)
 (.leaf 521069641359000000000000000000000000000000))
 (.node 1 (.leaf 108772930400000000000000000000)
 (.leaf 811041753429106500571000000000000000000000))))
 (.node 4 (.node 2 (.node 1 (.leaf 109268770500000000000000000000)
 (.leaf 109417165000000000000000000000))
 (.node 1 (.leaf 108430129900000000000000000000)
 (.leaf 106839610000000000000000000000)))
 (.node 2 (.node 1 (.leaf 1056158488)
 (.leaf 671077507003000000000000000000000000000000))
 (.node 1 (.leaf 105785319600000000000000000000)
 (.leaf 1059217982)))))
 (.node 8 (.node 4 (.node 2 (.node 1 (.leaf 104864025700000000000000000000)
 (.leaf 109057396400000000000000000000))
 (.node 1 (.leaf 11098521469000000000010985214690000000000)
 (.leaf 901024509325000000000000000000000000000000)))
 (.node 2 (.node 1 (.leaf 106793413900000000000000000000)
 (.leaf 111065660100000000000000000000))
 (.node 1 (.leaf 11092962055000000000010929620550000000000)
 (.leaf 1072636833))))
 (.node 4 (.node 2 (.node 1 (.leaf 581065544117000000000000000000000000000000)
 (.leaf 107098776000000000000000000000))
 (.node 1 (.leaf 1057442015)
 (.leaf 108661714200000000000000000000)))
 (.node 2 (.node 1 (.leaf 110461022400000000000000000000)
 (.leaf 109891582700000000000000000000))
 (.node 1 (.leaf 107548833200000000000000000000)
 (.leaf 1011070667737000000000000000000000000000000))))))))))
 (.node 256 (.node 128 (.node 64 (.node 32 (.node 16 (.node 8 (.node 4 (.node 2 (.node 1 (.leaf 1011086499960000000000000000000000000000000)
 (.leaf 1053612536))
 (.node 1 (.leaf 1012930884)
 (.leaf 107408307300000000000000000000)))
 (.node 2 (.node 1 (.leaf 11083147731000000000010831477310000000000)
 (.leaf 107529883400000000000000000000))
 (.node 1 (.leaf 601061727883000000000000000000000000000000)
 (.leaf 105701185300000000000000000000))))
 (.node 4 (.node 2 (.node 1 (.leaf 291082866234000000000000000000001047307182)
 (.leaf 108082545800000000000000000000))
 (.node 1 (.leaf 107055197200000000000000000000)
 (.leaf 109257631500000000000000000000)))
 (.node 2 (.node 1 (.leaf 1075008065)
 (.leaf 1046621140))
 (.node 1 (.leaf 111379095200000000000000000000)
 (.leaf 108970125600000000000000000000)))))
 (.node 8 (.node 4 (.node 2 (.node 1 (.leaf 109164661600000000000000000000)
 (.leaf 1061010564))
 (.node 1 (.leaf 108861958700000000000000000000)
 (.leaf 110738037800000000000000000000)))
 (.node 2 (.node 1 (.leaf 105557646100000000000000000000)
 (.leaf 1057583448))
 (.node 1 (.leaf 11116588942000000000011165889420000000000)
 (.leaf 561101144094000000000000000000000000000000))))
 (.node 4 (.node 2 (.node 1 (.leaf 581024251968000000000000000000000000000000)
 (.leaf 105060567400000000000000000000))
 (.node 1 (.leaf 108458816800000000000000000000)
 (.leaf 108568869100000000000000000000)))
 (.node 2 (.node 1 (.leaf 109868650300000000000000000000)
 (.leaf 1036634591))
 (.node 1 (.leaf 1031915618)
 (.leaf 911053799552000000000000000000000000000000))))))
 (.node 16 (.node 8 (.node 4 (.node 2 (.node 1 (.leaf 110941335700000000000000000000)
 (.leaf 1034457706))
 (.node 1 (.leaf 108887676000000000000000000000)
 (.leaf 109150830900000000000000000000)))
 (.node 2 (.node 1 (.leaf 102686853700000000000000000000)
 (.leaf 108796944800000000000000000000))
 (.node 1 (.leaf 1066485159)
 (.leaf 110055726800000000000000000000))))
 (.node 4 (.node 2 (.node 1 (.leaf 11105567758000000000011055677580000000000)
 (.leaf 108397789700000000000000000000))
 (.node 1 (.leaf 11091680452000000000010916804520000000000)
 (.leaf 104246587200000000000000000000)))
 (.node 2 (.node 1 (.leaf 3910831712940521083242605000000000000000000000000000000)
 (.leaf 1063189918))
 (.node 1 (.leaf 107407657100000000001059773967)
 (.leaf 11086481183000000000010864811830000000000)))))
 (.node 8 (.node 4 (.node 2 (.node 1 (.leaf 11036562971000000000010365629711068955993)
 (.leaf 106870798800000000000000000000))
 (.node 1 (.leaf 106152827900000000001047271416)
 (.leaf 181085260579000000000000000000000000000000)))
 (.node 2 (.node 1 (.leaf 1030911413)
 (.leaf 1044126254))
 (.node 1 (.leaf 1028660415)
 (.leaf 1063637956))))
 (.node 4 (.node 2 (.node 1 (.leaf 11083098129000000000010830981290000000000)
 (.leaf 103509348000000000000000000000))
 (.node 1 (.leaf 111909033700000000000000000000)
 (.leaf 521083063799000000000000000000000000000000)))
 (.node 2 (.node 1 (.leaf 11094686649000000000010946866490000000000)
 (.leaf 109869258500000000000000000000))
 (.node 1 (.leaf 1067687216)
 (.leaf 531068306282000000000000000000000000000000)))))))
 (.node 32 (.node 16 (.node 8 (.node 4 (.node 2 (.node 1 (.leaf 1057039651)
 (.leaf 11104057434000000000010981671980000000000))
 (.node 1 (.leaf 111474864300000000000000000000)
 (.leaf 11024045502000000000010240455020000000000)))
 (.node 2 (.node 1 (.leaf 481086923347000000000000000000000000000000)
 (.leaf 421074507894000000000000000000001040673228))
 (.node 1 (.leaf 103583232200000000000000000000)
 (.leaf 105588821500000000000000000000))))
 (.node 4 (.node 2 (.node 1 (.leaf 1022395302)
 (.leaf 1030663436))
 (.node 1 (.leaf 611055697241000000000000000000000000000000)
 (.leaf 104046347800000000000000000000)))
 (.node 2 (.node 1 (.leaf 1141067747228000000000000000000000000000000)
 (.leaf 630986716016000000000000000000000000000000))
 (.node 1 (.leaf 731076325049000000000000000000000000000000)
 (.leaf 106557509500000000000000000000)))))
 (.node 8 (.node 4 (.node 2 (.node 1 (.leaf 109686051300000000000000000000)
 (.leaf 611053744030000000000000000000001033735672))
 (.node 1 (.leaf 108540180000000000000000000000)
 (.leaf 110712544300000000000000000000)))
 (.node 2 (.node 1 (.leaf 1051097524)
 (.leaf 109364830500000000000000000000))
 (.node 1 (.leaf 109582976300000000001033304858)
 (.leaf 1040242784))))
 (.node 4 (.node 2 (.node 1 (.leaf 110024526400000000000000000000)
 (.leaf 111597760000000000000000000000))
 (.node 1 (.leaf 106173071300000000000000000000)
 (.leaf 511061962937000000000000000000000000000000)))
 (.node 2 (.node 1 (.leaf 1034990715)
 (.leaf 108009791400000000000000000000))
 (.node 1 (.leaf 1034954366)
 (.leaf 1085435047))))))
 (.node 16 (.node 8 (.node 4 (.node 2 (.node 1 (.leaf 1041173177)
 (.leaf 1044229492))
 (.node 1 (.leaf 1019228221)
 (.leaf 108577341600000000000000000000)))
 (.node 2 (.node 1 (.leaf 108474732100000000000000000000)
 (.leaf 111869016100000000000000000000))
 (.node 1 (.leaf 111925928900000000000000000000)
 (.leaf 974596164))))
 (.node 4 (.node 2 (.node 1 (.leaf 1053360626)
 (.leaf 1060685797))
 (.node 1 (.leaf 1059254416)
 (.leaf 1058769104)))
 (.node 2 (.node 1 (.leaf 109126395900000000000000000000)
 (.leaf 1057960314))
 (.node 1 (.leaf 1015222034)
 (.leaf 11054551561000000000010545515611064969478)))))
 (.node 8 (.node 4 (.node 2 (.node 1 (.leaf 1010742313)
 (.leaf 1012607713))
 (.node 1 (.leaf 108391504500000000000000000000)
 (.leaf 1077243299)))
 (.node 2 (.node 1 (.leaf 109740776500000000001012060668)
 (.leaf 1042687161))
 (.node 1 (.leaf 104526283500000000000000000000)
 (.leaf 1043383073))))
 (.node 4 (.node 2 (.node 1 (.leaf 112032857500000000000000000000)
 (.leaf 109255146300000000000000000000))
 (.node 1 (.leaf 111572634800000000000000000000)
 (.leaf 671043869092000000000000000000001041383311)))
 (.node 2 (.node 1 (.leaf 1057264358)
 (.leaf 471029189281000000000000000000000000000000))
 (.node 1 (.leaf 1059939100)
 (.leaf 661073859302000000000000000000000000000000))))))))
 (.node 64 (.node 32 (.node 16 (.node 8 (.node 4 (.node 2 (.node 1 (.leaf 11085961398000000000010859613980000000000)
 (.leaf 110476127100000000001062513564))
 (.node 1 (.leaf 111740677000000000000000000000)
 (.leaf 108062685800000000001039445452)))
 (.node 2 (.node 1 (.leaf 109798353800000000000000000000)
 (.leaf 1060974788))
 (.node 1 (.leaf 1017260981)
 (.leaf 1056587771))))
 (.node 4 (.node 2 (.node 1 (.leaf 1049727032)
 (.leaf 1038647626))
 (.node 1 (.leaf 1052752986)
 (.leaf 111278295600000000000000000000)))
 (.node 2 (.node 1 (.leaf 111826516000000000000000000000)
 (.leaf 111860424400000000000000000000))
 (.node 1 (.leaf 1061057476782000000000000000000000000000000)
 (.leaf 1064504058)))))
 (.node 8 (.node 4 (.node 2 (.node 1 (.leaf 1041826746)
 (.leaf 110169759400000000000000000000))
 (.node 1 (.leaf 1012892752)
 (.leaf 1040865376)))
 (.node 2 (.node 1 (.leaf 11105207261000000000011052072610000000000)
 (.leaf 11045947168107449747010459471680000000000))
 (.node 1 (.leaf 1029675154)
 (.leaf 1018015531))))
 (.node 4 (.node 2 (.node 1 (.leaf 741072052852000000000000000000000000000000)
 (.leaf 1063224387))
 (.node 1 (.leaf 107615526800000000000000000000)
 (.leaf 1050198055)))
 (.node 2 (.node 1 (.leaf 1040922664)
 (.leaf 1063178101))
 (.node 1 (.leaf 1052066362)
 (.leaf 781068119291000000000000000000000000000000))))))
 (.node 16 (.node 8 (.node 4 (.node 2 (.node 1 (.leaf 761065107488000000000000000000000000000000)
 (.leaf 106068707000000000000000000000))
 (.node 1 (.leaf 1060273205)
 (.leaf 1021108980)))
 (.node 2 (.node 1 (.leaf 861050310385000000000000000000000000000000)
 (.leaf 11090971342000000000010909713420000000000))
 (.node 1 (.leaf 1050443022)
 (.leaf 1068441571))))
 (.node 4 (.node 2 (.node 1 (.leaf 1042485355)
 (.leaf 11052832239106555320010528322390000000000))
 (.node 1 (.leaf 1044605961)
 (.leaf 741052629617000000000000000000001058345181)))
 (.node 2 (.node 1 (.leaf 791035538205000000000000000000000000000000)
 (.leaf 1054019020))
 (.node 1 (.leaf 1042555176)
 (.leaf 1021835530)))))
 (.node 8 (.node 4 (.node 2 (.node 1 (.leaf 1063067889)
 (.leaf 110932802900000000000000000000))
 (.node 1 (.leaf 1008478072)
 (.leaf 108510008300000000001017365451)))
 (.node 2 (.node 1 (.leaf 381053753316000000000000000000000000000000)
 (.leaf 1069970594))
 (.node 1 (.leaf 1061728987)
 (.leaf 1040008267))))
 (.node 4 (.node 2 (.node 1 (.leaf 650999821942000000000000000000000000000000)
 (.leaf 1054586383))
 (.node 1 (.leaf 601047323390000000000000000000001055042453)
 (.leaf 771065369168000000000000000000000000000000)))
 (.node 2 (.node 1 (.leaf 1049244832)
 (.leaf 109061310800000000000000000000))
 (.node 1 (.leaf 104813207500000000000000000000)
 (.leaf 1048920720)))))))
 (.node 32 (.node 16 (.node 8 (.node 4 (.node 2 (.node 1 (.leaf 1042257139)
 (.leaf 1059157021))
 (.node 1 (.leaf 1043666195)
 (.leaf 108329871300000000000000000000)))
 (.node 2 (.node 1 (.leaf 831000493148000000000000000000000000000000)
 (.leaf 108558649700000000000000000000))
 (.node 1 (.leaf 1059603768)
 (.leaf 721068491829000000000000000000001024908035))))
 (.node 4 (.node 2 (.node 1 (.leaf 721075326053000000000000000000000000000000)
 (.leaf 1034563506))
 (.node 1 (.leaf 108309067600000000001039547733)
 (.leaf 1049021084)))
 (.node 2 (.node 1 (.leaf 1061646889)
 (.leaf 1033189790))
 (.node 1 (.leaf 651045004083000000000000000000000000000000)
 (.leaf 1058268649)))))
 (.node 8 (.node 4 (.node 2 (.node 1 (.leaf 801071921827000000000000000000000000000000)
 (.leaf 1056546586))
 (.node 1 (.leaf 1031991547)
 (.leaf 1042175323)))
 (.node 2 (.node 1 (.leaf 1067275129)
 (.leaf 1049014344))
 (.node 1 (.leaf 571068919325000000000000000000001039444496)
 (.leaf 741060658643000000000000000000001045545677))))
 (.node 4 (.node 2 (.node 1 (.leaf 108294452500000000000000000000)
 (.leaf 1111017025044000000000000000000000000000000))
 (.node 1 (.leaf 891056220399000000000000000000001034024281)
 (.leaf 681075554660000000000000000000001054716085)))
 (.node 2 (.node 1 (.leaf 107526930600000000000000000000)
 (.leaf 1059691851))
 (.node 1 (.leaf 1049745380)
 (.leaf 1057623524))))))
 (.node 16 (.node 8 (.node 4 (.node 2 (.node 1 (.leaf 831069964915000000000000000000000000000000)
 (.leaf 1056584066))
 (.node 1 (.leaf 1045213497)
 (.leaf 1047480009)))
 (.node 2 (.node 1 (.leaf 511065911433000000000000000000001031508930)
 (.leaf 1020734173))
 (.node 1 (.leaf 1043093330)
 (.leaf 1058257263))))
 (.node 4 (.node 2 (.node 1 (.leaf 11051531480000000000000000000001057214836)
 (.leaf 651035962250000000000000000000001047329120))
 (.node 1 (.leaf 1010840939)
 (.leaf 1033706905)))
 (.node 2 (.node 1 (.leaf 551073866261000000000000000000000000000000)
 (.leaf 108813680100000000000000000000))
 (.node 1 (.leaf 1033340183)
 (.leaf 11056803421000000000010568034211037324953)))))
 (.node 8 (.node 4 (.node 2 (.node 1 (.leaf 651006539983000000000000000000000000000000)
 (.leaf 651069902685000000000000000000001050122035))
 (.node 1 (.leaf 601069437814000000000000000000001050361640)
 (.leaf 109522578300000000000000000000)))
 (.node 2 (.node 1 (.leaf 107619805000000000000000000000)
 (.leaf 111371500900000000000000000000))
 (.node 1 (.leaf 1040265728)
 (.leaf 601068868949000000000000000000000000000000))))
 (.node 4 (.node 2 (.node 1 (.leaf 1028059434)
 (.leaf 1040849256))
 (.node 1 (.leaf 1052651069)
 (.leaf 1026645701)))
 (.node 2 (.node 1 (.leaf 1020062843)
 (.leaf 931058100487000000000000000000000000000000))
 (.node 1 (.leaf 103724171600000000000000000000)
 (.leaf 1053876627)))))))))
 (.node 128 (.node 64 (.node 32 (.node 16 (.node 8 (.node 4 (.node 2 (.node 1 (.leaf 1040529503)
 (.leaf 1042311890))
 (.node 1 (.leaf 791061868559000000000000000000001067194385)
 (.leaf 1009820983)))
 (.node 2 (.node 1 (.leaf 1059020720)
 (.leaf 9110666635170931074726639000000000000000000000000000000))
 (.node 1 (.leaf 104942794700000000001052293816)
 (.leaf 1009412633))))
 (.node 4 (.node 2 (.node 1 (.leaf 731063444083000000000000000000001064330153)
 (.leaf 1016927851))
 (.node 1 (.leaf 1021794811)
 (.leaf 1051688079)))
 (.node 2 (.node 1 (.leaf 1058860278)
 (.leaf 1054112239))
 (.node 1 (.leaf 561086836077000000000000000000000000000000)
 (.leaf 109348976100000000000000000000)))))
 (.node 8 (.node 4 (.node 2 (.node 1 (.leaf 861008585160000000000000000000000000000000)
 (.leaf 998794331))
 (.node 1 (.leaf 421019377206000000000000000000001008488708)
 (.leaf 621063198237000000000000000000000000000000)))
 (.node 2 (.node 1 (.leaf 411079363761000000000000000000000000000000)
 (.leaf 631079340860000000000000000000001059892176))
 (.node 1 (.leaf 5110553702230591079962646000000000000000000000000000000)
 (.leaf 5110461010260731064297422000000000000000000000000000000))))
 (.node 4 (.node 2 (.node 1 (.leaf 1039478087)
 (.leaf 1051062307442000000000000000000001050175504))
 (.node 1 (.leaf 1029519735)
 (.leaf 631056968477000000000000000000000000000000)))
 (.node 2 (.node 1 (.leaf 1051676725)
 (.leaf 591083133904000000000000000000000000000000))
 (.node 1 (.leaf 1049555222)
 (.leaf 1045627734))))))
 (.node 16 (.node 8 (.node 4 (.node 2 (.node 1 (.leaf 1064966024)
 (.leaf 1051385164))
 (.node 1 (.leaf 431067558988000000000000000000001024842154)
 (.leaf 1071023993)))
 (.node 2 (.node 1 (.leaf 741068033894000000000000000000000000000000)
 (.leaf 1121044246788000000000000000000000000000000))
 (.node 1 (.leaf 109233815200000000000000000000)
 (.leaf 1054161867))))
 (.node 4 (.node 2 (.node 1 (.leaf 891058233904000000000000000000001035222193)
 (.leaf 401066618578000000000000000000001048065333))
 (.node 1 (.leaf 631068985267000000000000000000001056231576)
 (.leaf 1053255186)))
 (.node 2 (.node 1 (.leaf 108932423000000000000000000000)
 (.leaf 1057451787))
 (.node 1 (.leaf 1024850367)
 (.leaf 1044596614)))))
 (.node 8 (.node 4 (.node 2 (.node 1 (.leaf 961077472652000000000000000000000000000000)
 (.leaf 108500210400000000000000000000))
 (.node 1 (.leaf 110103631000000000000000000000)
 (.leaf 1006737104)))
 (.node 2 (.node 1 (.leaf 11038090691000000000010380906911020265126)
 (.leaf 1035999449))
 (.node 1 (.leaf 1045185202)
 (.leaf 1057134414))))
 (.node 4 (.node 2 (.node 1 (.leaf 691071788339000000000000000000001061759169)
 (.leaf 651068861419000000000000000000001031619586))
 (.node 1 (.leaf 1050105287)
 (.leaf 731068052881000000000000000000000000000000)))
 (.node 2 (.node 1 (.leaf 1038712749)
 (.leaf 1019383005))
 (.node 1 (.leaf 231066324985000000000000000000001068434110)
 (.leaf 611057442004000000000000000000001009109798)))))))
 (.node 32 (.node 16 (.node 8 (.node 4 (.node 2 (.node 1 (.leaf 541084466355000000000000000000000000000000)
 (.leaf 109067562400000000000000000000))
 (.node 1 (.leaf 1031635669)
 (.leaf 591067968451000000000000000000000000000000)))
 (.node 2 (.node 1 (.leaf 110755491300000000000000000000)
 (.leaf 1042734338))
 (.node 1 (.leaf 1044640704)
 (.leaf 109148332100000000000000000000))))
 (.node 4 (.node 2 (.node 1 (.leaf 1028064558)
 (.leaf 1030154878))
 (.node 1 (.leaf 1025507618)
 (.leaf 581075899667000000000000000000000000000000)))
 (.node 2 (.node 1 (.leaf 1015508193)
 (.leaf 621064559264000000000000000000000000000000))
 (.node 1 (.leaf 321057499073051106533310805410700155740861075047427000000000000000000001075950443)
 (.leaf 261083499549000000000000000000001011217429)))))
 (.node 8 (.node 4 (.node 2 (.node 1 (.leaf 1049224336)
 (.leaf 108630709900000000001034596674))
 (.node 1 (.leaf 1001053366441000000000000000000000000000000)
 (.leaf 1065898800)))
 (.node 2 (.node 1 (.leaf 651075271445000000000000000000001030760955)
 (.leaf 1042721399))
 (.node 1 (.leaf 108885415300000000000000000000)
 (.leaf 591031922954000000000000000000001051761269))))
 (.node 4 (.node 2 (.node 1 (.leaf 1042956168)
 (.leaf 108644066700000000000000000000))
 (.node 1 (.leaf 1081047916719000000000000000000000000000000)
 (.leaf 109529236800000000000000000000)))
 (.node 2 (.node 1 (.leaf 5210496421160621075245078000000000000000000001018250488)
 (.leaf 110225632800000000000000000000))
 (.node 1 (.leaf 109277693900000000000000000000)
 (.leaf 109748137500000000000000000000))))))
 (.node 16 (.node 8 (.node 4 (.node 2 (.node 1 (.leaf 1041121275)
 (.leaf 109345159200000000000000000000))
 (.node 1 (.leaf 108755670800000000000000000000)
 (.leaf 108759072400000000001008744009)))
 (.node 2 (.node 1 (.leaf 721067562077000000000000000000000000000000)
 (.leaf 110155016400000000000000000000))
 (.node 1 (.leaf 110356191000000000000000000000)
 (.leaf 108685940500000000000000000000))))
 (.node 4 (.node 2 (.node 1 (.leaf 111035838600000000000000000000)
 (.leaf 660991113753000000000000000000001049713666))
 (.node 1 (.leaf 107097517700000000000000000000)
 (.leaf 1035408848)))
 (.node 2 (.node 1 (.leaf 1091059607201000000000000000000001049115907)
 (.leaf 641066524431000000000000000000000000000000))
 (.node 1 (.leaf 1062925937)
 (.leaf 109283429600000000000000000000)))))
 (.node 8 (.node 4 (.node 2 (.node 1 (.leaf 108509192500000000001059103502)
 (.leaf 1071054582020000000000000000000001017256740))
 (.node 1 (.leaf 6010861262090681086562104000000000000000000001050582353)
 (.leaf 641069458230000000000000000000000000000000)))
 (.node 2 (.node 1 (.leaf 1059074739)
 (.leaf 11052107645108684923400000000000000000000))
 (.node 1 (.leaf 721089146566000000000000000000000000000000)
 (.leaf 1051645277))))
 (.node 4 (.node 2 (.node 1 (.leaf 6010497688180681057491404000000000000000000001042147086)
 (.leaf 1091059495591000000000000000000000000000000))
 (.node 1 (.leaf 1045878522)
 (.leaf 1058612459)))
 (.node 2 (.node 1 (.leaf 611062964106000000000000000000001051207011)
 (.leaf 1141065772662000000000000000000000000000000))
 (.node 1 (.leaf 1052233330)
 (.leaf 8510439939541081068246328000000000000000000001044554689))))))))
 (.node 64 (.node 32 (.node 16 (.node 8 (.node 4 (.node 2 (.node 1 (.leaf 108229516300000000000000000000)
 (.leaf 1030819245))
 (.node 1 (.leaf 1048748374)
 (.leaf 951041264760000000000000000000000000000000)))
 (.node 2 (.node 1 (.leaf 161035611694000000000000000000001015796351)
 (.leaf 10995628308108220861409956283081057453241))
 (.node 1 (.leaf 1058344146)
 (.leaf 1057310059))))
 (.node 4 (.node 2 (.node 1 (.leaf 1003928278)
 (.leaf 9510406441991051070251101000000000000000000000000000000))
 (.node 1 (.leaf 1028380358)
 (.leaf 999009309)))
 (.node 2 (.node 1 (.leaf 1071065370414000000000000000000000000000000)
 (.leaf 1031030934378000000000000000000001050102284))
 (.node 1 (.leaf 1038379399)
 (.leaf 751061120205000000000000000000000000000000)))))
 (.node 8 (.node 4 (.node 2 (.node 1 (.leaf 1029699581)
 (.leaf 1054732090))
 (.node 1 (.leaf 1057433335)
 (.leaf 621069103692000000000000000000000000000000)))
 (.node 2 (.node 1 (.leaf 1053759325)
 (.leaf 1022887577))
 (.node 1 (.leaf 1040517357)
 (.leaf 1121065413255000000000000000000000000000000))))
 (.node 4 (.node 2 (.node 1 (.leaf 1020411611)
 (.leaf 1023915855))
 (.node 1 (.leaf 1038751420)
 (.leaf 811060556761000000000000000000000000000000)))
 (.node 2 (.node 1 (.leaf 999942212)
 (.leaf 1011054447768000000000000000000000000000000))
 (.node 1 (.leaf 1025132698)
 (.leaf 621050438939000000000000000000000000000000))))))
 (.node 16 (.node 8 (.node 4 (.node 2 (.node 1 (.leaf 108014065400000000000000000000)
 (.leaf 1101064147869000000000000000000001027892858))
 (.node 1 (.leaf 1041418582)
 (.leaf 1012670582)))
 (.node 2 (.node 1 (.leaf 1042523321)
 (.leaf 1039525338))
 (.node 1 (.leaf 1061031366832000000000000000000000000000000)
 (.leaf 621053242808000000000000000000000000000000))))
 (.node 4 (.node 2 (.node 1 (.leaf 601086118288000000000000000000001029223106)
 (.leaf 106469346900000000001034501160))
 (.node 1 (.leaf 1005016988)
 (.leaf 1035442233)))
 (.node 2 (.node 1 (.leaf 1046646252)
 (.leaf 901080479433000000000000000000000000000000))
 (.node 1 (.leaf 781045666312000000000000000000000000000000)
 (.leaf 651073267131000000000000000000000000000000)))))
 (.node 8 (.node 4 (.node 2 (.node 1 (.leaf 10910339164111141062890060000000000000000000000000000000)
 (.leaf 1091032703548000000000000000000000000000000))
 (.node 1 (.leaf 1081066971910000000000000000000000000000000)
 (.leaf 1037262328)))
 (.node 2 (.node 1 (.leaf 6010333772320641065752476000000000000000000000000000000)
 (.leaf 1032249833))
 (.node 1 (.leaf 1026340681)
 (.leaf 1058369482))))
 (.node 4 (.node 2 (.node 1 (.leaf 721065714385000000000000000000000000000000)
 (.leaf 861063898359000000000000000000000000000000))
 (.node 1 (.leaf 1051677661)
 (.leaf 791072760913000000000000000000001059774260)))
 (.node 2 (.node 1 (.leaf 1046060015)
 (.leaf 1008728348))
 (.node 1 (.leaf 1035969591)
 (.leaf 1029917680)))))))
 (.node 32 (.node 16 (.node 8 (.node 4 (.node 2 (.node 1 (.leaf 1024529151)
 (.leaf 1009599066))
 (.node 1 (.leaf 1051056224008000000000000000000000000000000)
 (.leaf 1101050704955000000000000000000000000000000)))
 (.node 2 (.node 1 (.leaf 861056298172000000000000000000001056298250)
 (.leaf 1101058170762000000000000000000000000000000))
 (.node 1 (.leaf 851059016521000000000000000000000000000000)
 (.leaf 7210965404131111099387704000000000000000000001017203468))))
 (.node 4 (.node 2 (.node 1 (.leaf 851037560292000000000000000000000000000000)
 (.leaf 1009273295))
 (.node 1 (.leaf 102675807600000000000000000000)
 (.leaf 811075294417000000000000000000000000000000)))
 (.node 2 (.node 1 (.leaf 1051710923)
 (.leaf 851071096392000000000000000000000000000000))
 (.node 1 (.leaf 741001370350000000000000000000000000000000)
 (.leaf 741066605700000000000000000000000000000000)))))
 (.node 8 (.node 4 (.node 2 (.node 1 (.leaf 1052033329)
 (.leaf 1008813309))
 (.node 1 (.leaf 1004158439)
 (.leaf 109080175700000000000000000000)))
 (.node 2 (.node 1 (.leaf 661090624535000000000000000000000000000000)
 (.leaf 741084479389000000000000000000000000000000))
 (.node 1 (.leaf 881084394381000000000000000000000000000000)
 (.leaf 109584024900000000000000000000))))
 (.node 4 (.node 2 (.node 1 (.leaf 841069509083000000000000000000000000000000)
 (.leaf 1035776244))
 (.node 1 (.leaf 991064580013000000000000000000000000000000)
 (.leaf 11070321851000000000000000000000000000000)))
 (.node 2 (.node 1 (.leaf 781091853643000000000000000000000000000000)
 (.leaf 1021567593))
 (.node 1 (.leaf 110875165300000000000000000000)
 (.leaf 109347591900000000000000000000))))))
 (.node 16 (.node 8 (.node 4 (.node 2 (.node 1 (.leaf 1081020498327000000000000000000000000000000)
 (.leaf 1056063806))
 (.node 1 (.leaf 1058362990)
 (.leaf 108138556600000000000000000000)))
 (.node 2 (.node 1 (.leaf 1012894796)
 (.leaf 1065508333))
 (.node 1 (.leaf 1038055294)
 (.leaf 1043752191))))
 (.node 4 (.node 2 (.node 1 (.leaf 109222865900000000000000000000)
 (.leaf 111076903500000000000000000000))
 (.node 1 (.leaf 3110675037620741067697482000000000000000000001037785245)
 (.leaf 111660999600000000000000000000)))
 (.node 2 (.node 1 (.leaf 1031148197)
 (.leaf 951081194572000000000000000000000000000000))
 (.node 1 (.leaf 841083011627000000000000000000000000000000)
 (.leaf 741078057638000000000000000000001041701580)))))
 (.node 8 (.node 4 (.node 2 (.node 1 (.leaf 1050598722)
 (.leaf 1012939340))
 (.node 1 (.leaf 1026690900)
 (.leaf 1013027275)))
 (.node 2 (.node 1 (.leaf 106811097100000000001043280209)
 (.leaf 103230384500000000000000000000))
 (.node 1 (.leaf 571068009723000000000000000000000000000000)
 (.leaf 831072603896000000000000000000000000000000))))
 (.node 4 (.node 2 (.node 1 (.leaf 1001034305284000000000000000000000000000000)
 (.leaf 1046800613))
 (.node 1 (.leaf 601084786538000000000000000000000000000000)
 (.leaf 1022171832)))
 (.node 2 (.node 1 (.leaf 1041501507)
 (.leaf 801075027100000000000000000000000000000000))
 (.node 1 (.leaf 651103911317000000000000000000000000000000)
 (.leaf 101353658300000000000000000000))))))))))))
 (.node 1024 (.node 512 (.node 256 (.node 128 (.node 64 (.node 32 (.node 16 (.node 8 (.node 4 (.node 2 (.node 1 (.leaf 108165794400000000000000000000)
 (.leaf 106747134000000000000000000000))
 (.node 1 (.leaf 711085762992000000000000000000000000000000)
 (.leaf 110511243900000000000000000000)))
 (.node 2 (.node 1 (.leaf 941050752558000000000000000000000000000000)
 (.leaf 108686469000000000000000000000))
 (.node 1 (.leaf 108997222900000000000000000000)
 (.leaf 651103423913000000000000000000000000000000))))
 (.node 4 (.node 2 (.node 1 (.leaf 841071611968000000000000000000000000000000)
 (.leaf 1111084158636000000000000000000000000000000))
 (.node 1 (.leaf 108382847500000000000000000000)
 (.leaf 108498910200000000000000000000)))
 (.node 2 (.node 1 (.leaf 11112142108000000000011121421080000000000)
 (.leaf 109239055900000000000000000000))
 (.node 1 (.leaf 8010659989450871069081445000000000000000000001052401653)
 (.leaf 871098780897000000000000000000000000000000)))))
 (.node 8 (.node 4 (.node 2 (.node 1 (.leaf 11118007159000000000011180071590000000000)
 (.leaf 106007809000000000000000000000))
 (.node 1 (.leaf 108024727300000000000000000000)
 (.leaf 107956507000000000000000000000)))
 (.node 2 (.node 1 (.leaf 11098364498000000000010983644980000000000)
 (.leaf 107925783700000000000000000000))
 (.node 1 (.leaf 1111077845721000000000000000000000000000000)
 (.leaf 11098127485000000000010981274850000000000))))
 (.node 4 (.node 2 (.node 1 (.leaf 104264787100000000000000000000)
 (.leaf 108864712200000000000000000000))
 (.node 1 (.leaf 107575240600000000000000000000)
 (.leaf 1050859818)))
 (.node 2 (.node 1 (.leaf 661080321571000000000000000000000000000000)
 (.leaf 661015796024000000000000000000001026195677))
 (.node 1 (.leaf 881019901501000000000000000000000000000000)
 (.leaf 1051942776))))))
 (.node 16 (.node 8 (.node 4 (.node 2 (.node 1 (.leaf 421066579600000000000000000000000000000000)
 (.leaf 1039074147))
 (.node 1 (.leaf 561054914282000000000000000000000000000000)
 (.leaf 107961691100000000000000000000)))
 (.node 2 (.node 1 (.leaf 581018855630000000000000000000000000000000)
 (.leaf 751071581935000000000000000000000000000000))
 (.node 1 (.leaf 104622249200000000000000000000)
 (.leaf 1041738748))))
 (.node 4 (.node 2 (.node 1 (.leaf 111439705500000000000000000000)
 (.leaf 109240571100000000000000000000))
 (.node 1 (.leaf 301083488733000000000000000000000000000000)
 (.leaf 111320956900000000000000000000)))
 (.node 2 (.node 1 (.leaf 1050117406)
 (.leaf 107911510500000000000000000000))
 (.node 1 (.leaf 501073098710000000000000000000000000000000)
 (.leaf 981050531432000000000000000000000000000000)))))
 (.node 8 (.node 4 (.node 2 (.node 1 (.leaf 1064185514)
 (.leaf 107545540700000000000000000000))
 (.node 1 (.leaf 106453947100000000000000000000)
 (.leaf 1057624884)))
 (.node 2 (.node 1 (.leaf 1061085589434000000000000000000000000000000)
 (.leaf 1051077608852000000000000000000000000000000))
 (.node 1 (.leaf 992284593)
 (.leaf 1051058168365000000000000000000000000000000))))
 (.node 4 (.node 2 (.node 1 (.leaf 1029045865)
 (.leaf 1101084021140000000000000000000000000000000))
 (.node 1 (.leaf 1044836992)
 (.leaf 1049500840)))
 (.node 2 (.node 1 (.leaf 1022489745)
 (.leaf 591029395285000000000000000000000000000000))
 (.node 1 (.leaf 1040248469)
 (.leaf 1030841705)))))))
 (.node 32 (.node 16 (.node 8 (.node 4 (.node 2 (.node 1 (.leaf 9410779983110981081094213000000000000000000000000000000)
 (.leaf 1020062153))
 (.node 1 (.leaf 1048532795)
 (.leaf 791062485230000000000000000000000000000000)))
 (.node 2 (.node 1 (.leaf 1031227583)
 (.leaf 901065286242000000000000000000000000000000))
 (.node 1 (.leaf 1040948106)
 (.leaf 1151075979051000000000000000000000000000000))))
 (.node 4 (.node 2 (.node 1 (.leaf 1052123207)
 (.leaf 601068141423000000000000000000000000000000))
 (.node 1 (.leaf 1043926194)
 (.leaf 631030778131000000000000000000000000000000)))
 (.node 2 (.node 1 (.leaf 1072606411)
 (.leaf 1041631436))
 (.node 1 (.leaf 1050063625)
 (.leaf 621085779686000000000000000000000000000000)))))
 (.node 8 (.node 4 (.node 2 (.node 1 (.leaf 1026599350)
 (.leaf 1043545367))
 (.node 1 (.leaf 1036849371)
 (.leaf 1044866321)))
 (.node 2 (.node 1 (.leaf 1066192179)
 (.leaf 1060089527))
 (.node 1 (.leaf 1040060875)
 (.leaf 1053331657))))
 (.node 4 (.node 2 (.node 1 (.leaf 1046130727)
 (.leaf 1067864234))
 (.node 1 (.leaf 1001649339)
 (.leaf 1016291929)))
 (.node 2 (.node 1 (.leaf 1068929114)
 (.leaf 1058542212))
 (.node 1 (.leaf 671059034663000000000000000000000000000000)
 (.leaf 1016239906))))))
 (.node 16 (.node 8 (.node 4 (.node 2 (.node 1 (.leaf 10610525807241071066822403000000000000000000001008621572)
 (.leaf 106975471900000000000000000000))
 (.node 1 (.leaf 1052344063)
 (.leaf 108579856100000000000000000000)))
 (.node 2 (.node 1 (.leaf 1061060572771000000000000000000000000000000)
 (.leaf 1049011539))
 (.node 1 (.leaf 1058516161)
 (.leaf 7310644280310781067507908000000000000000000000000000000))))
 (.node 4 (.node 2 (.node 1 (.leaf 1018904816)
 (.leaf 1027192985))
 (.node 1 (.leaf 671055058580000000000000000000000000000000)
 (.leaf 1023056383)))
 (.node 2 (.node 1 (.leaf 1046277350)
 (.leaf 1051617839))
 (.node 1 (.leaf 1034290558)
 (.leaf 998545955)))))
 (.node 8 (.node 4 (.node 2 (.node 1 (.leaf 871051432065000000000000000000000000000000)
 (.leaf 110747925900000000000000000000))
 (.node 1 (.leaf 1008802858)
 (.leaf 108445432800000000001032079185)))
 (.node 2 (.node 1 (.leaf 671075384840000000000000000000000000000000)
 (.leaf 1061048287))
 (.node 1 (.leaf 1040097062)
 (.leaf 1015116333))))
 (.node 4 (.node 2 (.node 1 (.leaf 1030225091)
 (.leaf 1023912486))
 (.node 1 (.leaf 711059311572000000000000000000000000000000)
 (.leaf 681071970381000000000000000000000000000000)))
 (.node 2 (.node 1 (.leaf 1045735905)
 (.leaf 851070950458000000000000000000000000000000))
 (.node 1 (.leaf 611082628664000000000000000000000000000000)
 (.leaf 1048266468))))))))
 (.node 64 (.node 32 (.node 16 (.node 8 (.node 4 (.node 2 (.node 1 (.leaf 1044292759)
 (.leaf 108638930700000000000000000000))
 (.node 1 (.leaf 107817629400000000001009694778)
 (.leaf 107738193500000000000000000000)))
 (.node 2 (.node 1 (.leaf 841048713781107282704600000000000000000000)
 (.leaf 1023878924))
 (.node 1 (.leaf 108437709000000000000000000000)
 (.leaf 108541824200000000000000000000))))
 (.node 4 (.node 2 (.node 1 (.leaf 651075933060000000000000000000001048925532)
 (.leaf 1062769661))
 (.node 1 (.leaf 109358423700000000000000000000)
 (.leaf 106058644000000000000000000000)))
 (.node 2 (.node 1 (.leaf 108871391600000000000000000000)
 (.leaf 110469500100000000000000000000))
 (.node 1 (.leaf 110270815900000000000000000000)
 (.leaf 110130154700000000000000000000)))))
 (.node 8 (.node 4 (.node 2 (.node 1 (.leaf 109268047000000000000000000000)
 (.leaf 108226370600000000000000000000))
 (.node 1 (.leaf 112040345600000000000000000000)
 (.leaf 112040345600000000000000000000)))
 (.node 2 (.node 1 (.leaf 112040345600000000000000000000)
 (.leaf 112037519700000000000000000000))
 (.node 1 (.leaf 112040345600000000000000000000)
 (.leaf 112012955500000000000000000000))))
 (.node 4 (.node 2 (.node 1 (.leaf 111909295900000000000000000000)
 (.leaf 112040345600000000000000000000))
 (.node 1 (.leaf 112040345600000000000000000000)
 (.leaf 11120400935000000000011204009350000000000)))
 (.node 2 (.node 1 (.leaf 109075461300000000000000000000)
 (.leaf 109175082300000000000000000000))
 (.node 1 (.leaf 108649911400000000000000000000)
 (.leaf 108477544400000000000000000000))))))
 (.node 16 (.node 8 (.node 4 (.node 2 (.node 1 (.leaf 108050224500000000000000000000)
 (.leaf 107116232700000000000000000000))
 (.node 1 (.leaf 107599529800000000000000000000)
 (.leaf 104841534100000000000000000000)))
 (.node 2 (.node 1 (.leaf 109291272900000000000000000000)
 (.leaf 109591501200000000000000000000))
 (.node 1 (.leaf 109608142100000000000000000000)
 (.leaf 106745204600000000000000000000))))
 (.node 4 (.node 2 (.node 1 (.leaf 108198044400000000000000000000)
 (.leaf 110552453000000000000000000000))
 (.node 1 (.leaf 109669808900000000000000000000)
 (.leaf 110463670000000000000000000000)))
 (.node 2 (.node 1 (.leaf 110620772900000000000000000000)
 (.leaf 108240260000000000000000000000))
 (.node 1 (.leaf 109187314000000000000000000000)
 (.leaf 110694047400000000000000000000)))))
 (.node 8 (.node 4 (.node 2 (.node 1 (.leaf 11090827134000000000010908271340000000000)
 (.leaf 108924911000000000000000000000))
 (.node 1 (.leaf 107480847700000000000000000000)
 (.leaf 601078539618109131441600000000000000000000)))
 (.node 2 (.node 1 (.leaf 651085875152000000000000000000000000000000)
 (.leaf 109832526900000000000000000000))
 (.node 1 (.leaf 109124639500000000000000000000)
 (.leaf 108198786800000000000000000000))))
 (.node 4 (.node 2 (.node 1 (.leaf 721091404512000000000000000000000000000000)
 (.leaf 671060501757000000000000000000000000000000))
 (.node 1 (.leaf 11095012426000000000010950124260000000000)
 (.leaf 11098717835000000000010987178350000000000)))
 (.node 2 (.node 1 (.leaf 109652025000000000000000000000)
 (.leaf 104818911700000000000000000000))
 (.node 1 (.leaf 11074099774000000000010740997740000000000)
 (.leaf 601087285820000000000000000000000000000000)))))))
 (.node 32 (.node 16 (.node 8 (.node 4 (.node 2 (.node 1 (.leaf 108381599700000000000000000000)
 (.leaf 106630859500000000000000000000))
 (.node 1 (.leaf 105685676400000000000000000000)
 (.leaf 107769386500000000000000000000)))
 (.node 2 (.node 1 (.leaf 109999072200000000000000000000)
 (.leaf 107288090100000000000000000000))
 (.node 1 (.leaf 107453924500000000000000000000)
 (.leaf 108408061600000000000000000000))))
 (.node 4 (.node 2 (.node 1 (.leaf 108807986300000000000000000000)
 (.leaf 104087183500000000000000000000))
 (.node 1 (.leaf 107495473300000000000000000000)
 (.leaf 108673055600000000000000000000)))
 (.node 2 (.node 1 (.leaf 109236341200000000000000000000)
 (.leaf 108795130800000000000000000000))
 (.node 1 (.leaf 108955206400000000000000000000)
 (.leaf 105244180600000000000000000000)))))
 (.node 8 (.node 4 (.node 2 (.node 1 (.leaf 106033219800000000000000000000)
 (.leaf 109872079200000000000000000000))
 (.node 1 (.leaf 106696491900000000000000000000)
 (.leaf 109287298800000000000000000000)))
 (.node 2 (.node 1 (.leaf 108969108400000000000000000000)
 (.leaf 109810160800000000000000000000))
 (.node 1 (.leaf 108516874400000000000000000000)
 (.leaf 110310672300000000000000000000))))
 (.node 4 (.node 2 (.node 1 (.leaf 691077414772105382985200000000000000000000)
 (.leaf 110708103190661072386595000000000010708103190000000000))
 (.node 1 (.leaf 109769727700000000000000000000)
 (.leaf 11081977411104582165110819774110000000000)))
 (.node 2 (.node 1 (.leaf 109905990100000000000000000000)
 (.leaf 11084657390000000000010846573900000000000))
 (.node 1 (.leaf 110028180700000000000000000000)
 (.leaf 105795540300000000000000000000))))))
 (.node 16 (.node 8 (.node 4 (.node 2 (.node 1 (.leaf 103578187000000000000000000000)
 (.leaf 110109115000000000000000000000))
 (.node 1 (.leaf 109637240100000000000000000000)
 (.leaf 110858983200000000000000000000)))
 (.node 2 (.node 1 (.leaf 110498362200000000000000000000)
 (.leaf 107810524200000000000000000000))
 (.node 1 (.leaf 101694276100000000000000000000)
 (.leaf 108301251500000000000000000000))))
 (.node 4 (.node 2 (.node 1 (.leaf 110137159200000000000000000000)
 (.leaf 102858209500000000000000000000))
 (.node 1 (.leaf 110737062600000000000000000000)
 (.leaf 109767368400000000000000000000)))
 (.node 2 (.node 1 (.leaf 11118798594000000000011187985940000000000)
 (.leaf 106594176100000000000000000000))
 (.node 1 (.leaf 108274277900000000000000000000)
 (.leaf 108030972700000000000000000000)))))
 (.node 8 (.node 4 (.node 2 (.node 1 (.leaf 741068224276000000000000000000000000000000)
 (.leaf 11085843182107597831110858431820000000000))
 (.node 1 (.leaf 108253931400000000000000000000)
 (.leaf 110263491600000000000000000000)))
 (.node 2 (.node 1 (.leaf 107485943800000000000000000000)
 (.leaf 105719566400000000000000000000))
 (.node 1 (.leaf 11030900438000000000010309004380000000000)
 (.leaf 108719585100000000000000000000))))
 (.node 4 (.node 2 (.node 1 (.leaf 109408503700000000000000000000)
 (.leaf 105114016300000000000000000000))
 (.node 1 (.leaf 110395156100000000000000000000)
 (.leaf 111340429000000000000000000000)))
 (.node 2 (.node 1 (.leaf 106230429300000000000000000000)
 (.leaf 108075201600000000000000000000))
 (.node 1 (.leaf 11083394880108898621110833948800000000000)
 (.leaf 111257216600000000000000000000)))))))))
 (.node 128 (.node 64 (.node 32 (.node 16 (.node 8 (.node 4 (.node 2 (.node 1 (.leaf 109238026200000000000000000000)
 (.leaf 107706056700000000000000000000))
 (.node 1 (.leaf 109308899500000000000000000000)
 (.leaf 108760557200000000000000000000)))
 (.node 2 (.node 1 (.leaf 105544227700000000000000000000)
 (.leaf 107341777200000000000000000000))
 (.node 1 (.leaf 110146895200000000000000000000)
 (.leaf 107523084400000000000000000000))))
 (.node 4 (.node 2 (.node 1 (.leaf 11090096293000000000010900962930000000000)
 (.leaf 11116104911000000000011161049110000000000))
 (.node 1 (.leaf 109348242100000000000000000000)
 (.leaf 109811586800000000000000000000)))
 (.node 2 (.node 1 (.leaf 108822895000000000000000000000)
 (.leaf 108887923500000000000000000000))
 (.node 1 (.leaf 104357390700000000001070204149)
 (.leaf 541033351157000000000000000000000000000000)))))
 (.node 8 (.node 4 (.node 2 (.node 1 (.leaf 109841355900000000000000000000)
 (.leaf 11076269850000000000010762698500000000000))
 (.node 1 (.leaf 110160469000000000000000000000)
 (.leaf 103322178700000000000000000000)))
 (.node 2 (.node 1 (.leaf 105288435600000000000000000000)
 (.leaf 107303214800000000000000000000))
 (.node 1 (.leaf 1131055457815000000000000000000000000000000)
 (.leaf 401063787702000000000000000000000000000000))))
 (.node 4 (.node 2 (.node 1 (.leaf 105296102700000000000000000000)
 (.leaf 106760035600000000000000000000))
 (.node 1 (.leaf 231040561334000000000000000000000000000000)
 (.leaf 104981060200000000000000000000)))
 (.node 2 (.node 1 (.leaf 106874934400000000000000000000)
 (.leaf 109292006900000000000000000000))
 (.node 1 (.leaf 110089034800000000000000000000)
 (.leaf 11085717041000000000010857170410000000000))))))
 (.node 16 (.node 8 (.node 4 (.node 2 (.node 1 (.leaf 110144300000000000000000000000)
 (.leaf 108132567100000000000000000000))
 (.node 1 (.leaf 108828769100000000000000000000)
 (.leaf 671090543148000000000000000000000000000000)))
 (.node 2 (.node 1 (.leaf 110321713800000000000000000000)
 (.leaf 109317760000000000000000000000))
 (.node 1 (.leaf 109607733200000000000000000000)
 (.leaf 107025048500000000000000000000))))
 (.node 4 (.node 2 (.node 1 (.leaf 109065895100000000000000000000)
 (.leaf 108148790700000000000000000000))
 (.node 1 (.leaf 109278469800000000001060747518)
 (.leaf 109006853000000000000000000000)))
 (.node 2 (.node 1 (.leaf 109966812800000000000000000000)
 (.leaf 109248071600000000000000000000))
 (.node 1 (.leaf 104942247800000000000000000000)
 (.leaf 106793229400000000000000000000)))))
 (.node 8 (.node 4 (.node 2 (.node 1 (.leaf 109287309300000000000000000000)
 (.leaf 811108041934000000000000000000000000000000))
 (.node 1 (.leaf 99662270100000000000000000000)
 (.leaf 8110709440740941091158899000000000000000000000000000000)))
 (.node 2 (.node 1 (.leaf 711115038397000000000000000000000000000000)
 (.leaf 551056269900000000000000000000000000000000))
 (.node 1 (.leaf 109554843000000000000000000000)
 (.leaf 721091061004000000000000000000000000000000))))
 (.node 4 (.node 2 (.node 1 (.leaf 521083909855105340938200000000000000000000)
 (.leaf 11099359035110877535110993590350000000000))
 (.node 1 (.leaf 110515925800000000000000000000)
 (.leaf 108623468400000000000000000000)))
 (.node 2 (.node 1 (.leaf 111873397900000000000000000000)
 (.leaf 108409311500000000000000000000))
 (.node 1 (.leaf 771065047983110668802900000000000000000000)
 (.leaf 11073203750102675447910732037500000000000)))))))
 (.node 32 (.node 16 (.node 8 (.node 4 (.node 2 (.node 1 (.leaf 11001537193000000000010015371930000000000)
 (.leaf 108396533500000000000000000000))
 (.node 1 (.leaf 99367983300000000000000000000)
 (.leaf 801054257100000000000000000000000000000000)))
 (.node 2 (.node 1 (.leaf 109916769500000000000000000000)
 (.leaf 109150404100000000000000000000))
 (.node 1 (.leaf 771053470590000000000000000000000000000000)
 (.leaf 109555912500000000000000000000))))
 (.node 4 (.node 2 (.node 1 (.leaf 106268776900000000000000000000)
 (.leaf 11091961177000000000010919611770000000000))
 (.node 1 (.leaf 11094645531000000000010946455310000000000)
 (.leaf 1002867859)))
 (.node 2 (.node 1 (.leaf 108251647600000000000000000000)
 (.leaf 109633402300000000000000000000))
 (.node 1 (.leaf 107818598300000000000000000000)
 (.leaf 1024331447)))))
 (.node 8 (.node 4 (.node 2 (.node 1 (.leaf 108183708200000000000000000000)
 (.leaf 109339192900000000000000000000))
 (.node 1 (.leaf 107506982500000000000000000000)
 (.leaf 110838703700000000000000000000)))
 (.node 2 (.node 1 (.leaf 106238465500000000000000000000)
 (.leaf 11053757925000000000010537579250000000000))
 (.node 1 (.leaf 691059747010000000000000000000000000000000)
 (.leaf 551075547278000000000000000000000000000000))))
 (.node 4 (.node 2 (.node 1 (.leaf 1011080739839000000000000000000000000000000)
 (.leaf 101254949200000000000000000000))
 (.node 1 (.leaf 581085699702000000000000000000000000000000)
 (.leaf 106102155700000000000000000000)))
 (.node 2 (.node 1 (.leaf 1091063871733000000000000000000000000000000)
 (.leaf 106812221200000000001034353467))
 (.node 1 (.leaf 1052470574)
 (.leaf 1052655550))))))
 (.node 16 (.node 8 (.node 4 (.node 2 (.node 1 (.leaf 11116983631000000000011169836310000000000)
 (.leaf 561091703134000000000000000000000000000000))
 (.node 1 (.leaf 631056241772000000000000000000001058159741)
 (.leaf 681069208817000000000000000000000000000000)))
 (.node 2 (.node 1 (.leaf 911067405222000000000000000000001044085377)
 (.leaf 561081888324000000000000000000001059184657))
 (.node 1 (.leaf 1049737757)
 (.leaf 109112867200000000000000000000))))
 (.node 4 (.node 2 (.node 1 (.leaf 109390310900000000000000000000)
 (.leaf 1032846829))
 (.node 1 (.leaf 11093570046000000000010935700460000000000)
 (.leaf 561043220921000000000000000000000000000000)))
 (.node 2 (.node 1 (.leaf 1061436478)
 (.leaf 108578304200000000001043254316))
 (.node 1 (.leaf 111348157000000000000000000000)
 (.leaf 111734089300000000000000000000)))))
 (.node 8 (.node 4 (.node 2 (.node 1 (.leaf 11008012765000000000010080127650000000000)
 (.leaf 391100483817000000000000000000001044609783))
 (.node 1 (.leaf 106767996400000000000000000000)
 (.leaf 481090906894000000000000000000000000000000)))
 (.node 2 (.node 1 (.leaf 108914089700000000000000000000)
 (.leaf 993315997))
 (.node 1 (.leaf 1075387399)
 (.leaf 1064965941))))
 (.node 4 (.node 2 (.node 1 (.leaf 108641518600000000001045095539)
 (.leaf 271035334173000000000000000000000000000000))
 (.node 1 (.leaf 1029534111)
 (.leaf 1141075044908000000000000000000000000000000)))
 (.node 2 (.node 1 (.leaf 491056655652000000000000000000000000000000)
 (.leaf 1049989423))
 (.node 1 (.leaf 108248728300000000001061051665)
 (.leaf 1053995918))))))))
 (.node 64 (.node 32 (.node 16 (.node 8 (.node 4 (.node 2 (.node 1 (.leaf 108447926300000000000000000000)
 (.leaf 1031961503))
 (.node 1 (.leaf 108659304600000000000000000000)
 (.leaf 107133664200000000000000000000)))
 (.node 2 (.node 1 (.leaf 109689469700000000001070181786)
 (.leaf 107825032300000000000000000000))
 (.node 1 (.leaf 109481862100000000000000000000)
 (.leaf 108263660100000000000000000000))))
 (.node 4 (.node 2 (.node 1 (.leaf 107622464200000000000000000000)
 (.leaf 111893978800000000000000000000))
 (.node 1 (.leaf 110527198000000000000000000000)
 (.leaf 110189299600000000000000000000)))
 (.node 2 (.node 1 (.leaf 110358482100000000000000000000)
 (.leaf 1033614316))
 (.node 1 (.leaf 1030148113)
 (.leaf 111626519800000000000000000000)))))
 (.node 8 (.node 4 (.node 2 (.node 1 (.leaf 1003304576)
 (.leaf 106651789000000000000000000000))
 (.node 1 (.leaf 1059019394)
 (.leaf 111651427500000000000000000000)))
 (.node 2 (.node 1 (.leaf 1069455630)
 (.leaf 1067550241))
 (.node 1 (.leaf 112040345600000000000000000000)
 (.leaf 108612758300000000000000000000))))
 (.node 4 (.node 2 (.node 1 (.leaf 107825305000000000000000000000)
 (.leaf 111564837400000000000000000000))
 (.node 1 (.leaf 1066521683)
 (.leaf 1066664631)))
 (.node 2 (.node 1 (.leaf 111879726000000000000000000000)
 (.leaf 110602092500000000000000000000))
 (.node 1 (.leaf 1073766503)
 (.leaf 111663908100000000000000000000))))))
 (.node 16 (.node 8 (.node 4 (.node 2 (.node 1 (.leaf 1067068198)
 (.leaf 11095506783000000000010955067830000000000))
 (.node 1 (.leaf 11081110401000000000010811104011036563836)
 (.leaf 1031437359)))
 (.node 2 (.node 1 (.leaf 1057026249)
 (.leaf 11113339321000000000011133393210000000000))
 (.node 1 (.leaf 1033180450)
 (.leaf 107176613900000000000000000000))))
 (.node 4 (.node 2 (.node 1 (.leaf 1031959482)
 (.leaf 1031425796))
 (.node 1 (.leaf 111276476300000000000000000000)
 (.leaf 106329292400000000000000000000)))
 (.node 2 (.node 1 (.leaf 1061069501892000000000000000000000000000000)
 (.leaf 561077360967000000000000000000000000000000))
 (.node 1 (.leaf 511078885878000000000000000000000000000000)
 (.leaf 1056378418)))))
 (.node 8 (.node 4 (.node 2 (.node 1 (.leaf 1039953175)
 (.leaf 1026292687))
 (.node 1 (.leaf 111314468900000000000000000000)
 (.leaf 1049388332)))
 (.node 2 (.node 1 (.leaf 1051643474)
 (.leaf 1045288613))
 (.node 1 (.leaf 861015378948000000000000000000000000000000)
 (.leaf 861077073168000000000000000000001051599784))))
 (.node 4 (.node 2 (.node 1 (.leaf 11074858465000000000010748584651057456519)
 (.leaf 108764852100000000000000000000))
 (.node 1 (.leaf 910786784350381084789161000000000000000000000000000000)
 (.leaf 110216609800000000000000000000)))
 (.node 2 (.node 1 (.leaf 110937862300000000000000000000)
 (.leaf 1049159775))
 (.node 1 (.leaf 1047812187)
 (.leaf 1044475186)))))))
 (.node 32 (.node 16 (.node 8 (.node 4 (.node 2 (.node 1 (.leaf 791070624640000000000000000000001044561134)
 (.leaf 108229879100000000000000000000))
 (.node 1 (.leaf 111601502100000000000000000000)
 (.leaf 1065711235)))
 (.node 2 (.node 1 (.leaf 1031339164)
 (.leaf 1025815725))
 (.node 1 (.leaf 1036632267)
 (.leaf 771039842020000000000000000000000000000000))))
 (.node 4 (.node 2 (.node 1 (.leaf 1011050898706000000000000000000000000000000)
 (.leaf 1043727977))
 (.node 1 (.leaf 109976627400000000000000000000)
 (.leaf 1034280507)))
 (.node 2 (.node 1 (.leaf 531069892917000000000000000000000000000000)
 (.leaf 691059599779000000000000000000000000000000))
 (.node 1 (.leaf 721069323834000000000000000000001042703626)
 (.leaf 108012391900000000000000000000)))))
 (.node 8 (.node 4 (.node 2 (.node 1 (.leaf 1037563256)
 (.leaf 1041989336))
 (.node 1 (.leaf 601074077512000000000000000000000000000000)
 (.leaf 1043990418)))
 (.node 2 (.node 1 (.leaf 1044190157)
 (.leaf 1049919173))
 (.node 1 (.leaf 1041044393)
 (.leaf 1060392459))))
 (.node 4 (.node 2 (.node 1 (.leaf 1019796695)
 (.leaf 1065555483))
 (.node 1 (.leaf 1039296555)
 (.leaf 601033703628000000000000000000001036006362)))
 (.node 2 (.node 1 (.leaf 11046756546000000000000000000001039012926)
 (.leaf 1034635367))
 (.node 1 (.leaf 1046346831)
 (.leaf 1022548749))))))
 (.node 16 (.node 8 (.node 4 (.node 2 (.node 1 (.leaf 1091054663961000000000000000000000000000000)
 (.leaf 1037715178))
 (.node 1 (.leaf 1045851251)
 (.leaf 108627870400000000000000000000)))
 (.node 2 (.node 1 (.leaf 631062727909000000000000000000001041765978)
 (.leaf 641068499959000000000000000000001058266812))
 (.node 1 (.leaf 1051217345)
 (.leaf 1059798167))))
 (.node 4 (.node 2 (.node 1 (.leaf 1045589837)
 (.leaf 1050203458))
 (.node 1 (.leaf 1049895032)
 (.leaf 1042452740)))
 (.node 2 (.node 1 (.leaf 671067432062000000000000000000000000000000)
 (.leaf 1141034227403000000000000000000000000000000))
 (.node 1 (.leaf 1033337401)
 (.leaf 1052556697)))))
 (.node 8 (.node 4 (.node 2 (.node 1 (.leaf 1027796184)
 (.leaf 631060859737000000000000000000000000000000))
 (.node 1 (.leaf 1056054541)
 (.leaf 1042390029)))
 (.node 2 (.node 1 (.leaf 106348502300000000000000000000)
 (.leaf 101648277000000000000000000000))
 (.node 1 (.leaf 105744047700000000000000000000)
 (.leaf 351050192714000000000000000000000000000000))))
 (.node 4 (.node 2 (.node 1 (.leaf 781039374170000000000000000000000000000000)
 (.leaf 511078783905000000000000000000000000000000))
 (.node 1 (.leaf 531073479792000000000000000000000000000000)
 (.leaf 1044413741)))
 (.node 2 (.node 1 (.leaf 1039165124)
 (.leaf 631067769602000000000000000000001022150186))
 (.node 1 (.leaf 511083728169000000000000000000000000000000)
 (.leaf 4110769004050431081328899000000000000000000000000000000))))))))))
 (.node 256 (.node 128 (.node 64 (.node 32 (.node 16 (.node 8 (.node 4 (.node 2 (.node 1 (.leaf 1046378355)
 (.leaf 1000949672330000000000000000000000000000000))
 (.node 1 (.leaf 1063776184)
 (.leaf 401032596000000000000000000000000000000000)))
 (.node 2 (.node 1 (.leaf 1059447615)
 (.leaf 591050757002000000000000000000000000000000))
 (.node 1 (.leaf 771037939898000000000000000000000000000000)
 (.leaf 1022823754))))
 (.node 4 (.node 2 (.node 1 (.leaf 11063936357000000000010639363570000000000)
 (.leaf 1016826666))
 (.node 1 (.leaf 791055889288000000000000000000001055888494)
 (.leaf 1039157158)))
 (.node 2 (.node 1 (.leaf 1070571410)
 (.leaf 1026184556))
 (.node 1 (.leaf 611083241378000000000000000000000000000000)
 (.leaf 1048971517)))))
 (.node 8 (.node 4 (.node 2 (.node 1 (.leaf 1056678872)
 (.leaf 1073984344))
 (.node 1 (.leaf 1039523428)
 (.leaf 998523532)))
 (.node 2 (.node 1 (.leaf 1029605580)
 (.leaf 301086971774000000000000000000001069644480))
 (.node 1 (.leaf 921061378027000000000000000000000000000000)
 (.leaf 1066544530))))
 (.node 4 (.node 2 (.node 1 (.leaf 741062395271000000000000000000000000000000)
 (.leaf 107994150900000000000000000000))
 (.node 1 (.leaf 541079047946000000000000000000000000000000)
 (.leaf 1060305271)))
 (.node 2 (.node 1 (.leaf 7410752802350831075322236000000000000000000001041469476)
 (.leaf 1056516459))
 (.node 1 (.leaf 1032336145)
 (.leaf 109890261500000000000000000000))))))
 (.node 16 (.node 8 (.node 4 (.node 2 (.node 1 (.leaf 1038230840)
 (.leaf 4110597687500621068484550000000000000000000001028600111))
 (.node 1 (.leaf 5310736180580861074303404000000000000000000001061207908)
 (.leaf 621065855289000000000000000000000000000000)))
 (.node 2 (.node 1 (.leaf 1040067544)
 (.leaf 1059115006))
 (.node 1 (.leaf 791051345061000000000000000000000000000000)
 (.leaf 107377529500000000000000000000))))
 (.node 4 (.node 2 (.node 1 (.leaf 1026218605)
 (.leaf 6310470800180741082417013000000000000000000000000000000))
 (.node 1 (.leaf 109049448200000000000000000000)
 (.leaf 107980250900000000000000000000)))
 (.node 2 (.node 1 (.leaf 109579872500000000000000000000)
 (.leaf 5210463366250621056012996000000000000000000001035144723))
 (.node 1 (.leaf 5410643909330681072109311000000000000000000001063049710)
 (.leaf 651051161313000000000000000000001038287793)))))
 (.node 8 (.node 4 (.node 2 (.node 1 (.leaf 1040794469)
 (.leaf 110029601500000000000000000000))
 (.node 1 (.leaf 1029909530)
 (.leaf 1032211305)))
 (.node 2 (.node 1 (.leaf 421052146229000000000000000000001052145608)
 (.leaf 104172633200000000000000000000))
 (.node 1 (.leaf 1019588291)
 (.leaf 109056426500000000000000000000))))
 (.node 4 (.node 2 (.node 1 (.leaf 1061059194061000000000000000000000000000000)
 (.leaf 1053226408))
 (.node 1 (.leaf 1091068124907000000000000000000000000000000)
 (.leaf 109000710400000000000000000000)))
 (.node 2 (.node 1 (.leaf 1044672908)
 (.leaf 7010491372460881068429444000000000000000000001027260770))
 (.node 1 (.leaf 1017980539)
 (.leaf 721040591757107798776000000000000000000000)))))))
 (.node 32 (.node 16 (.node 8 (.node 4 (.node 2 (.node 1 (.leaf 108985866800000000001045903031)
 (.leaf 681057332024000000000000000000001041313083))
 (.node 1 (.leaf 791053098581000000000000000000001011579983)
 (.leaf 108269324500000000001012322466)))
 (.node 2 (.node 1 (.leaf 1056260141)
 (.leaf 1081059520876000000000000000000001013600870))
 (.node 1 (.leaf 161071716463000000000000000000000000000000)
 (.leaf 1000905719))))
 (.node 4 (.node 2 (.node 1 (.leaf 1016928483)
 (.leaf 551057900685000000000000000000001025069283))
 (.node 1 (.leaf 161010686700000000000000000000000000000000)
 (.leaf 321075161804000000000000000000000000000000)))
 (.node 2 (.node 1 (.leaf 11099192890000000000010991928901062652864)
 (.leaf 1049775354))
 (.node 1 (.leaf 58104635749109510627359261031065286887000000000000000000001049066860)
 (.leaf 1061067174393000000000000000000000000000000)))))
 (.node 8 (.node 4 (.node 2 (.node 1 (.leaf 1067409067)
 (.leaf 1019795263))
 (.node 1 (.leaf 1025583814)
 (.leaf 1025673917)))
 (.node 2 (.node 1 (.leaf 1043302406)
 (.leaf 471071278116000000000000000000000000000000))
 (.node 1 (.leaf 1071041125610000000000000000000001046634699)
 (.leaf 641065701423000000000000000000000000000000))))
 (.node 4 (.node 2 (.node 1 (.leaf 1033098504)
 (.leaf 104501755200000000001040751202))
 (.node 1 (.leaf 1050150472)
 (.leaf 1034544658)))
 (.node 2 (.node 1 (.leaf 1011077403249000000000000000000000000000000)
 (.leaf 105813065800000000000000000000))
 (.node 1 (.leaf 711058159150000000000000000000000000000000)
 (.leaf 601090630696000000000000000000000000000000))))))
 (.node 16 (.node 8 (.node 4 (.node 2 (.node 1 (.leaf 1036863039)
 (.leaf 1061093335178000000000000000000001034778449))
 (.node 1 (.leaf 621096850886000000000000000000000000000000)
 (.leaf 1061017028777000000000000000000001046034730)))
 (.node 2 (.node 1 (.leaf 991062260968000000000000000000001026904333)
 (.leaf 1036184713))
 (.node 1 (.leaf 5710766324740591082929587000000000000000000000000000000)
 (.leaf 791056998771000000000000000000000000000000))))
 (.node 4 (.node 2 (.node 1 (.leaf 1011054652013000000000000000000000000000000)
 (.leaf 1071008056769000000000000000000001052194639))
 (.node 1 (.leaf 1059272820)
 (.leaf 881073604332000000000000000000001057890917)))
 (.node 2 (.node 1 (.leaf 107992473100000000000000000000)
 (.leaf 1081065142836000000000000000000000000000000))
 (.node 1 (.leaf 1052039171)
 (.leaf 1034655413)))))
 (.node 8 (.node 4 (.node 2 (.node 1 (.leaf 1037451231)
 (.leaf 491069266469000000000000000000001021884714))
 (.node 1 (.leaf 761086857684000000000000000000000000000000)
 (.leaf 681077216095000000000000000000001064234347)))
 (.node 2 (.node 1 (.leaf 1101062173558000000000000000000000000000000)
 (.leaf 631054922052000000000000000000000000000000))
 (.node 1 (.leaf 5510927371650911097608973000000000000000000000000000000)
 (.leaf 811084473865000000000000000000001063084412))))
 (.node 4 (.node 2 (.node 1 (.leaf 1053895603)
 (.leaf 641034067650000000000000000000000000000000))
 (.node 1 (.leaf 721068836597000000000000000000001059466179)
 (.leaf 108381283000000000000000000000)))
 (.node 2 (.node 1 (.leaf 1049102770)
 (.leaf 981080243195000000000000000000000000000000))
 (.node 1 (.leaf 741080007411000000000000000000000000000000)
 (.leaf 1074941727))))))))
 (.node 64 (.node 32 (.node 16 (.node 8 (.node 4 (.node 2 (.node 1 (.leaf 109608813200000000000000000000)
 (.leaf 611065907640000000000000000000000000000000))
 (.node 1 (.leaf 7410942830290801094283354000000000000000000000000000000)
 (.leaf 107731931400000000000000000000)))
 (.node 2 (.node 1 (.leaf 1032456732)
 (.leaf 991034782216000000000000000000000000000000))
 (.node 1 (.leaf 781074147657000000000000000000000000000000)
 (.leaf 731053784927000000000000000000001054183440))))
 (.node 4 (.node 2 (.node 1 (.leaf 1171059797342000000000000000000000000000000)
 (.leaf 1050694312))
 (.node 1 (.leaf 1046385296)
 (.leaf 1101048978746000000000000000000000000000000)))
 (.node 2 (.node 1 (.leaf 109159613700000000000000000000)
 (.leaf 311065814464000000000000000000000000000000))
 (.node 1 (.leaf 921068161327000000000000000000001053050651)
 (.leaf 111716091800000000000000000000)))))
 (.node 8 (.node 4 (.node 2 (.node 1 (.leaf 921063197502000000000000000000000000000000)
 (.leaf 871091641867000000000000000000000000000000))
 (.node 1 (.leaf 1002498743)
 (.leaf 1048787630)))
 (.node 2 (.node 1 (.leaf 109097560000000000000000000000)
 (.leaf 831099468183000000000000000000000000000000))
 (.node 1 (.leaf 871074461892000000000000000000000000000000)
 (.leaf 1032703892))))
 (.node 4 (.node 2 (.node 1 (.leaf 1063106636)
 (.leaf 108212321800000000000000000000))
 (.node 1 (.leaf 108250913600000000000000000000)
 (.leaf 591078233597000000000000000000001019434098)))
 (.node 2 (.node 1 (.leaf 651026250578000000000000000000000000000000)
 (.leaf 1161099696237000000000000000000000000000000))
 (.node 1 (.leaf 109340367300000000000000000000)
 (.leaf 1111079976523000000000000000000000000000000))))))
 (.node 16 (.node 8 (.node 4 (.node 2 (.node 1 (.leaf 11033874936000000000010338749360000000000)
 (.leaf 107995430100000000000000000000))
 (.node 1 (.leaf 11117909209000000000011179092090000000000)
 (.leaf 11111105987000000000011111059870000000000)))
 (.node 2 (.node 1 (.leaf 871107701995000000000000000000000000000000)
 (.leaf 105040569000000000000000000000))
 (.node 1 (.leaf 109679791300000000000000000000)
 (.leaf 11103696646000000000011036966460000000000))))
 (.node 4 (.node 2 (.node 1 (.leaf 109604126100000000000000000000)
 (.leaf 11079179698000000000010791796980000000000))
 (.node 1 (.leaf 107858112800000000000000000000)
 (.leaf 1050634475)))
 (.node 2 (.node 1 (.leaf 1027145947)
 (.leaf 109442037200000000000000000000))
 (.node 1 (.leaf 107789447900000000000000000000)
 (.leaf 108009753700000000000000000000)))))
 (.node 8 (.node 4 (.node 2 (.node 1 (.leaf 751056972037000000000000000000000000000000)
 (.leaf 661049815645000000000000000000000000000000))
 (.node 1 (.leaf 611062721042000000000000000000001054036189)
 (.leaf 1042118016)))
 (.node 2 (.node 1 (.leaf 108367032900000000000000000000)
 (.leaf 111853052900000000000000000000))
 (.node 1 (.leaf 1026664606)
 (.leaf 751074468464000000000000000000000000000000))))
 (.node 4 (.node 2 (.node 1 (.leaf 891055426040000000000000000000000000000000)
 (.leaf 102537711000000000000000000000))
 (.node 1 (.leaf 111703991300000000000000000000)
 (.leaf 531089945324000000000000000000000000000000)))
 (.node 2 (.node 1 (.leaf 111229662700000000000000000000)
 (.leaf 1041023745))
 (.node 1 (.leaf 106710769300000000000000000000)
 (.leaf 701066229042000000000000000000000000000000)))))))
 (.node 32 (.node 16 (.node 8 (.node 4 (.node 2 (.node 1 (.leaf 110678790600000000000000000000)
 (.leaf 1061058216980000000000000000000000000000000))
 (.node 1 (.leaf 591076692639000000000000000000000000000000)
 (.leaf 1066491960)))
 (.node 2 (.node 1 (.leaf 1049411920)
 (.leaf 8210868152611101087653854000000000000000000000000000000))
 (.node 1 (.leaf 1052931556)
 (.leaf 1043333236))))
 (.node 4 (.node 2 (.node 1 (.leaf 781068400828000000000000000000000000000000)
 (.leaf 981067103673000000000000000000000000000000))
 (.node 1 (.leaf 1029384304)
 (.leaf 731052070178000000000000000000000000000000)))
 (.node 2 (.node 1 (.leaf 621035411923000000000000000000000000000000)
 (.leaf 1028605427))
 (.node 1 (.leaf 1055024754)
 (.leaf 631090617469000000000000000000000000000000)))))
 (.node 8 (.node 4 (.node 2 (.node 1 (.leaf 631063637973000000000000000000000000000000)
 (.leaf 1018813112))
 (.node 1 (.leaf 1024410805)
 (.leaf 691066251408000000000000000000000000000000)))
 (.node 2 (.node 1 (.leaf 6210892853170711089493253000000000000000000000000000000)
 (.leaf 761070700572000000000000000000000000000000))
 (.node 1 (.leaf 721067559129000000000000000000000000000000)
 (.leaf 1029918743))))
 (.node 4 (.node 2 (.node 1 (.leaf 105403352800000000000000000000)
 (.leaf 1062833094))
 (.node 1 (.leaf 1008638131)
 (.leaf 1012297673)))
 (.node 2 (.node 1 (.leaf 1031689372)
 (.leaf 1008835651))
 (.node 1 (.leaf 851021100579000000000000000000001043792023)
 (.leaf 1033270921))))))
 (.node 16 (.node 8 (.node 4 (.node 2 (.node 1 (.leaf 851018178514000000000000000000000000000000)
 (.leaf 841082724045000000000000000000000000000000))
 (.node 1 (.leaf 671078299485000000000000000000000000000000)
 (.leaf 102103033733410610720592961071077867016000000000000000000000000000000)))
 (.node 2 (.node 1 (.leaf 108581764500000000000000000000)
 (.leaf 108097406200000000000000000000))
 (.node 1 (.leaf 1046587049)
 (.leaf 110106666600000000000000000000))))
 (.node 4 (.node 2 (.node 1 (.leaf 1091016752796000000000000000000000000000000)
 (.leaf 871058640313000000000000000000001057667016))
 (.node 1 (.leaf 821044401134000000000000000000000000000000)
 (.leaf 110051233600000000000000000000)))
 (.node 2 (.node 1 (.leaf 1044080208)
 (.leaf 1014208967))
 (.node 1 (.leaf 681050140825000000000000000000000000000000)
 (.leaf 1051117628)))))
 (.node 8 (.node 4 (.node 2 (.node 1 (.leaf 1033511888)
 (.leaf 108578050400000000001055229301))
 (.node 1 (.leaf 1073143252)
 (.leaf 1051798372)))
 (.node 2 (.node 1 (.leaf 931067624676000000000000000000000000000000)
 (.leaf 1031230950))
 (.node 1 (.leaf 110476352600000000000000000000)
 (.leaf 108052455900000000000000000000))))
 (.node 4 (.node 2 (.node 1 (.leaf 110547152400000000000000000000)
 (.leaf 112040345600000000000000000000))
 (.node 1 (.leaf 112040345600000000000000000000)
 (.leaf 112034547000000000000000000000)))
 (.node 2 (.node 1 (.leaf 110124460900000000000000000000)
 (.leaf 108544728800000000000000000000))
 (.node 1 (.leaf 104529887300000000000000000000)
 (.leaf 109497842400000000000000000000)))))))))
 (.node 128 (.node 64 (.node 32 (.node 16 (.node 8 (.node 4 (.node 2 (.node 1 (.leaf 107596723800000000000000000000)
 (.leaf 109457063300000000000000000000))
 (.node 1 (.leaf 107284826900000000000000000000)
 (.leaf 109640113200000000000000000000)))
 (.node 2 (.node 1 (.leaf 107189641400000000000000000000)
 (.leaf 109154979000000000000000000000))
 (.node 1 (.leaf 109346071500000000000000000000)
 (.leaf 105704112900000000000000000000))))
 (.node 4 (.node 2 (.node 1 (.leaf 108606208900000000000000000000)
 (.leaf 108483013800000000000000000000))
 (.node 1 (.leaf 107590461700000000000000000000)
 (.leaf 109686900700000000000000000000)))
 (.node 2 (.node 1 (.leaf 651075540591000000000000000000000000000000)
 (.leaf 11083841473000000000010838414730000000000))
 (.node 1 (.leaf 108600200500000000000000000000)
 (.leaf 105746975300000000000000000000)))))
 (.node 8 (.node 4 (.node 2 (.node 1 (.leaf 651093833545000000000000000000000000000000)
 (.leaf 110064304100000000000000000000))
 (.node 1 (.leaf 110258295900000000000000000000)
 (.leaf 109968128700000000000000000000)))
 (.node 2 (.node 1 (.leaf 106078154200000000000000000000)
 (.leaf 103183484800000000000000000000))
 (.node 1 (.leaf 105087669300000000000000000000)
 (.leaf 721080732904000000000000000000000000000000))))
 (.node 4 (.node 2 (.node 1 (.leaf 11093459829000000000010934598290000000000)
 (.leaf 111360005900000000000000000000))
 (.node 1 (.leaf 11081703284000000000010817032840000000000)
 (.leaf 11101243785000000000011012437850000000000)))
 (.node 2 (.node 1 (.leaf 109433585700000000000000000000)
 (.leaf 111110363500000000000000000000))
 (.node 1 (.leaf 110789494000000000000000000000)
 (.leaf 601088247289110264891500000000000000000000))))))
 (.node 16 (.node 8 (.node 4 (.node 2 (.node 1 (.leaf 109793616800000000000000000000)
 (.leaf 109760196100000000000000000000))
 (.node 1 (.leaf 110198380300000000000000000000)
 (.leaf 5710918066750631092860055000000000000000000000000000000)))
 (.node 2 (.node 1 (.leaf 108423580500000000000000000000)
 (.leaf 111126459200000000000000000000))
 (.node 1 (.leaf 501064795732000000000000000000000000000000)
 (.leaf 109357196900000000000000000000))))
 (.node 4 (.node 2 (.node 1 (.leaf 108096433200000000000000000000)
 (.leaf 110349705500000000000000000000))
 (.node 1 (.leaf 11032907326108272499610329073260000000000)
 (.leaf 108938443900000000000000000000)))
 (.node 2 (.node 1 (.leaf 107691171100000000000000000000)
 (.leaf 105877938300000000000000000000))
 (.node 1 (.leaf 109952143200000000000000000000)
 (.leaf 110993352900000000000000000000)))))
 (.node 8 (.node 4 (.node 2 (.node 1 (.leaf 111347200200000000000000000000)
 (.leaf 11102553616000000000011025536160000000000))
 (.node 1 (.leaf 11075257104000000000010752571040000000000)
 (.leaf 109026188700000000000000000000)))
 (.node 2 (.node 1 (.leaf 110814874800000000000000000000)
 (.leaf 11051364328000000000010513643280000000000))
 (.node 1 (.leaf 110764910200000000000000000000)
 (.leaf 107583952100000000000000000000))))
 (.node 4 (.node 2 (.node 1 (.leaf 108713765500000000000000000000)
 (.leaf 108800321300000000000000000000))
 (.node 1 (.leaf 109989818500000000000000000000)
 (.leaf 102237669900000000000000000000)))
 (.node 2 (.node 1 (.leaf 108175059600000000000000000000)
 (.leaf 109486549200000000000000000000))
 (.node 1 (.leaf 108666629900000000000000000000)
 (.leaf 106072332500000000000000000000)))))))
 (.node 32 (.node 16 (.node 8 (.node 4 (.node 2 (.node 1 (.leaf 110181377600000000000000000000)
 (.leaf 106057117300000000000000000000))
 (.node 1 (.leaf 11074421767000000000010744217670000000000)
 (.leaf 108286443500000000000000000000)))
 (.node 2 (.node 1 (.leaf 101266223500000000000000000000)
 (.leaf 109938679500000000000000000000))
 (.node 1 (.leaf 109634922700000000000000000000)
 (.leaf 108590723500000000000000000000))))
 (.node 4 (.node 2 (.node 1 (.leaf 111549971200000000000000000000)
 (.leaf 109198034600000000000000000000))
 (.node 1 (.leaf 108629097200000000000000000000)
 (.leaf 111027484100000000000000000000)))
 (.node 2 (.node 1 (.leaf 110583967900000000000000000000)
 (.leaf 108787459400000000000000000000))
 (.node 1 (.leaf 103696549500000000000000000000)
 (.leaf 106774187200000000000000000000)))))
 (.node 8 (.node 4 (.node 2 (.node 1 (.leaf 11091189050000000000010911890500000000000)
 (.leaf 109275082900000000000000000000))
 (.node 1 (.leaf 110112098200000000000000000000)
 (.leaf 109173473800000000000000000000)))
 (.node 2 (.node 1 (.leaf 109104106300000000000000000000)
 (.leaf 108744025300000000000000000000))
 (.node 1 (.leaf 541091539358000000000000000000000000000000)
 (.leaf 541075376557000000000000000000000000000000))))
 (.node 4 (.node 2 (.node 1 (.leaf 1131082888373000000000000000000000000000000)
 (.leaf 109680598700000000000000000000))
 (.node 1 (.leaf 11085220740000000000010852207400000000000)
 (.leaf 541085547118000000000000000000000000000000)))
 (.node 2 (.node 1 (.leaf 11075527501107278334210755275010000000000)
 (.leaf 108143610700000000000000000000))
 (.node 1 (.leaf 110877692400000000000000000000)
 (.leaf 671102298725000000000000000000000000000000))))))
 (.node 16 (.node 8 (.node 4 (.node 2 (.node 1 (.leaf 11085872577000000000010858725770000000000)
 (.leaf 108807231400000000000000000000))
 (.node 1 (.leaf 1059557097)
 (.leaf 106828075600000000000000000000)))
 (.node 2 (.node 1 (.leaf 107494177200000000000000000000)
 (.leaf 110141898800000000000000000000))
 (.node 1 (.leaf 110757457400000000000000000000)
 (.leaf 109109086000000000000000000000))))
 (.node 4 (.node 2 (.node 1 (.leaf 551075697215000000000000000000000000000000)
 (.leaf 109081003000000000000000000000))
 (.node 1 (.leaf 109398594700000000000000000000)
 (.leaf 108795195800000000000000000000)))
 (.node 2 (.node 1 (.leaf 109474155100000000000000000000)
 (.leaf 109363949700000000000000000000))
 (.node 1 (.leaf 109868230900000000000000000000)
 (.leaf 771067967096104057870400000000000000000000)))))
 (.node 8 (.node 4 (.node 2 (.node 1 (.leaf 811094015902000000000000000000000000000000)
 (.leaf 711065668197109748368200000000000000000000))
 (.node 1 (.leaf 711106211906000000000000000000000000000000)
 (.leaf 551094837152000000000000000000000000000000)))
 (.node 2 (.node 1 (.leaf 108717299200000000000000000000)
 (.leaf 521087198095000000000000000000000000000000))
 (.node 1 (.leaf 621069725396000000000000000000000000000000)
 (.leaf 109255436800000000000000000000))))
 (.node 4 (.node 2 (.node 1 (.leaf 741095341681104082331600000000000000000000)
 (.leaf 107167034100000000000000000000))
 (.node 1 (.leaf 109472225700000000000000000000)
 (.leaf 109761496400000000000000000000)))
 (.node 2 (.node 1 (.leaf 801101766847102547745100000000000000000000)
 (.leaf 11083288593000000000010832885930000000000))
 (.node 1 (.leaf 771071833500000000000000000000000000000000)
 (.leaf 109993845100000000000000000000))))))))
 (.node 64 (.node 32 (.node 16 (.node 8 (.node 4 (.node 2 (.node 1 (.leaf 106693287500000000000000000000)
 (.leaf 108202909800000000000000000000))
 (.node 1 (.leaf 1068089751)
 (.leaf 721087024247000000000000000000000000000000)))
 (.node 2 (.node 1 (.leaf 1032559252)
 (.leaf 1066350554))
 (.node 1 (.leaf 110955876800000000000000000000)
 (.leaf 11091165357000000000010911653570000000000))))
 (.node 4 (.node 2 (.node 1 (.leaf 11102121861000000000011021218610000000000)
 (.leaf 107961460500000000000000000000))
 (.node 1 (.leaf 107346936200000000000000000000)
 (.leaf 105752109100000000000000000000)))
 (.node 2 (.node 1 (.leaf 110897798800000000000000000000)
 (.leaf 290918654568108596346000000000000000000000))
 (.node 1 (.leaf 109303415400000000000000000000)
 (.leaf 107566004700000000000000000000)))))
 (.node 8 (.node 4 (.node 2 (.node 1 (.leaf 108683094700000000000000000000)
 (.leaf 291089245820108110693800000000000000000000))
 (.node 1 (.leaf 431094100010000000000000000000000000000000)
 (.leaf 691099424031000000000000000000000000000000)))
 (.node 2 (.node 1 (.leaf 551081544031000000000000000000000000000000)
 (.leaf 1060448864))
 (.node 1 (.leaf 731028054335000000000000000000000000000000)
 (.leaf 1027915257))))
 (.node 4 (.node 2 (.node 1 (.leaf 11094625713104861653410946257131024144301)
 (.leaf 996323358))
 (.node 1 (.leaf 103233350700000000000000000000)
 (.leaf 107967378600000000000000000000)))
 (.node 2 (.node 1 (.leaf 1066325114)
 (.leaf 1044298903))
 (.node 1 (.leaf 561077246138000000000000000000000000000000)
 (.leaf 1048686415))))))
 (.node 16 (.node 8 (.node 4 (.node 2 (.node 1 (.leaf 108927209400000000000000000000)
 (.leaf 11106449336000000000011064493360000000000))
 (.node 1 (.leaf 1046273280)
 (.leaf 4810709753020491076512807000000000000000000000000000000)))
 (.node 2 (.node 1 (.leaf 1057499734)
 (.leaf 109871848500000000000000000000))
 (.node 1 (.leaf 1042918018)
 (.leaf 1045235245))))
 (.node 4 (.node 2 (.node 1 (.leaf 1051419312)
 (.leaf 1020504874))
 (.node 1 (.leaf 107519389200000000000000000000)
 (.leaf 1030932308)))
 (.node 2 (.node 1 (.leaf 111117001000000000000000000000)
 (.leaf 271094194865000000000000000000000000000000))
 (.node 1 (.leaf 1053262629)
 (.leaf 109891404400000000000000000000)))))
 (.node 8 (.node 4 (.node 2 (.node 1 (.leaf 109552609500000000000000000000)
 (.leaf 1101074747884000000000000000000000000000000))
 (.node 1 (.leaf 110484410900000000000000000000)
 (.leaf 681054982863000000000000000000001041092288)))
 (.node 2 (.node 1 (.leaf 1067762648)
 (.leaf 109249963200000000000000000000))
 (.node 1 (.leaf 106770966000000000000000000000)
 (.leaf 107350358800000000000000000000))))
 (.node 4 (.node 2 (.node 1 (.leaf 1030906514)
 (.leaf 1035260506))
 (.node 1 (.leaf 105151728100000000000000000000)
 (.leaf 108950108200000000000000000000)))
 (.node 2 (.node 1 (.leaf 1001500251)
 (.leaf 109180692200000000001055229739))
 (.node 1 (.leaf 107898327800000000000000000000)
 (.leaf 110152704300000000000000000000)))))))
 (.node 32 (.node 16 (.node 8 (.node 4 (.node 2 (.node 1 (.leaf 110906942400000000000000000000)
 (.leaf 641060209625000000000000000000001033220105))
 (.node 1 (.leaf 1068013150)
 (.leaf 1048615492)))
 (.node 2 (.node 1 (.leaf 111025436800000000000000000000)
 (.leaf 1050306719))
 (.node 1 (.leaf 491078509940000000000000000000001043239017)
 (.leaf 11089919895000000000010899198950000000000))))
 (.node 4 (.node 2 (.node 1 (.leaf 1068861994)
 (.leaf 1074562463))
 (.node 1 (.leaf 1052192968)
 (.leaf 111810461000000000000000000000)))
 (.node 2 (.node 1 (.leaf 109671224400000000000000000000)
 (.leaf 1062355879))
 (.node 1 (.leaf 1041729774)
 (.leaf 1042081519)))))
 (.node 8 (.node 4 (.node 2 (.node 1 (.leaf 111414550200000000000000000000)
 (.leaf 1044557764))
 (.node 1 (.leaf 110622681300000000001050050727)
 (.leaf 11108337465000000000011083374650000000000)))
 (.node 2 (.node 1 (.leaf 1051037265612000000000000000000000000000000)
 (.leaf 411060243657000000000000000000000000000000))
 (.node 1 (.leaf 1017892280)
 (.leaf 91059755629000000000000000000001052137827))))
 (.node 4 (.node 2 (.node 1 (.leaf 108453471200000000000000000000)
 (.leaf 641076328933000000000000000000000000000000))
 (.node 1 (.leaf 1031042155)
 (.leaf 112022962800000000000000000000)))
 (.node 2 (.node 1 (.leaf 1053193988)
 (.leaf 731060144696000000000000000000001050680066))
 (.node 1 (.leaf 1042152845)
 (.leaf 111270701300000000000000000000))))))
 (.node 16 (.node 8 (.node 4 (.node 2 (.node 1 (.leaf 1057894785)
 (.leaf 1034505150))
 (.node 1 (.leaf 1011039260177000000000000000000000000000000)
 (.leaf 631079079983000000000000000000000000000000)))
 (.node 2 (.node 1 (.leaf 1062733336)
 (.leaf 1041216347))
 (.node 1 (.leaf 1030381924)
 (.leaf 1131061641250000000000000000000001053622530))))
 (.node 4 (.node 2 (.node 1 (.leaf 451082873572000000000000000000000000000000)
 (.leaf 1052105169))
 (.node 1 (.leaf 1025200172)
 (.leaf 1050484778)))
 (.node 2 (.node 1 (.leaf 1059674781)
 (.leaf 1039734737))
 (.node 1 (.leaf 107754610000000000000000000000)
 (.leaf 661041470423000000000000000000000000000000)))))
 (.node 8 (.node 4 (.node 2 (.node 1 (.leaf 601073629520000000000000000000001051399953)
 (.leaf 1031073676))
 (.node 1 (.leaf 1016855941)
 (.leaf 1049523294)))
 (.node 2 (.node 1 (.leaf 601072947974000000000000000000000000000000)
 (.leaf 1069235704))
 (.node 1 (.leaf 681073963976000000000000000000000000000000)
 (.leaf 1043452805))))
 (.node 4 (.node 2 (.node 1 (.leaf 1050854496)
 (.leaf 1091079142308000000000000000000000000000000))
 (.node 1 (.leaf 108263108500000000000000000000)
 (.leaf 1043437634)))
 (.node 2 (.node 1 (.leaf 1048375911)
 (.leaf 1043680625))
 (.node 1 (.leaf 110802048100000000000000000000)
 (.leaf 1040908592)))))))))))
 (.node 512 (.node 256 (.node 128 (.node 64 (.node 32 (.node 16 (.node 8 (.node 4 (.node 2 (.node 1 (.leaf 741059400495000000000000000000001034278138)
 (.leaf 781081891643000000000000000000001047456154))
 (.node 1 (.leaf 1053798008)
 (.leaf 105390014900000000000000000000)))
 (.node 2 (.node 1 (.leaf 1027171430)
 (.leaf 1026813361))
 (.node 1 (.leaf 108291434700000000000000000000)
 (.leaf 109899457500000000000000000000))))
 (.node 4 (.node 2 (.node 1 (.leaf 1141071591837000000000000000000000000000000)
 (.leaf 1001880495))
 (.node 1 (.leaf 5610694963080971082958773000000000000000000000000000000)
 (.leaf 841069632367000000000000000000000000000000)))
 (.node 2 (.node 1 (.leaf 111265565900000000000000000000)
 (.leaf 108668894800000000000000000000))
 (.node 1 (.leaf 1038093654)
 (.leaf 4310801270170511086431599000000000000000000000000000000)))))
 (.node 8 (.node 4 (.node 2 (.node 1 (.leaf 5310828065850631085162746000000000000000000000000000000)
 (.leaf 811070552005000000000000000000001028026031))
 (.node 1 (.leaf 990387321)
 (.leaf 4410782618070511078270532000000000000000000000000000000)))
 (.node 2 (.node 1 (.leaf 1049802695)
 (.leaf 1024824766))
 (.node 1 (.leaf 4310491868880791058704543000000000000000000001001710311)
 (.leaf 11028960395000000000010289603950000000000))))
 (.node 4 (.node 2 (.node 1 (.leaf 401066839527000000000000000000000000000000)
 (.leaf 1059738258))
 (.node 1 (.leaf 108264509400000000000000000000)
 (.leaf 1037501653)))
 (.node 2 (.node 1 (.leaf 1026622197)
 (.leaf 1023197877))
 (.node 1 (.leaf 1066741078)
 (.leaf 1037834547))))))
 (.node 16 (.node 8 (.node 4 (.node 2 (.node 1 (.leaf 791066022449000000000000000000000000000000)
 (.leaf 681053487682000000000000000000000000000000))
 (.node 1 (.leaf 1081061775305000000000000000000000000000000)
 (.leaf 1071506782)))
 (.node 2 (.node 1 (.leaf 1071006683)
 (.leaf 11103680507000000000011036805070000000000))
 (.node 1 (.leaf 1060969023)
 (.leaf 111070105796000000000000000000001056925029))))
 (.node 4 (.node 2 (.node 1 (.leaf 109151207300000000000000000000)
 (.leaf 1051065564))
 (.node 1 (.leaf 1024419095)
 (.leaf 1033679619)))
 (.node 2 (.node 1 (.leaf 1049223042)
 (.leaf 741066206273000000000000000000001066107769))
 (.node 1 (.leaf 791024467566000000000000000000001033833417)
 (.leaf 961073418294000000000000000000000000000000)))))
 (.node 8 (.node 4 (.node 2 (.node 1 (.leaf 731085720852000000000000000000001041668314)
 (.leaf 1043049235))
 (.node 1 (.leaf 6610831310160871086885728000000000000000000000000000000)
 (.leaf 108047036800000000000000000000)))
 (.node 2 (.node 1 (.leaf 108049901600000000000000000000)
 (.leaf 661093981870000000000000000000000000000000))
 (.node 1 (.leaf 108979063600000000000000000000)
 (.leaf 10410704001191111074801605000000000000000000000000000000))))
 (.node 4 (.node 2 (.node 1 (.leaf 741059321792000000000000000000000000000000)
 (.leaf 108653615000000000000000000000))
 (.node 1 (.leaf 651096664683000000000000000000000000000000)
 (.leaf 1040740448)))
 (.node 2 (.node 1 (.leaf 106829845600000000000000000000)
 (.leaf 1061052147204000000000000000000000000000000))
 (.node 1 (.leaf 104558683700000000000000000000)
 (.leaf 791058234610000000000000000000001038692931)))))))
 (.node 32 (.node 16 (.node 8 (.node 4 (.node 2 (.node 1 (.leaf 1044850955)
 (.leaf 421049985784000000000000000000001049986178))
 (.node 1 (.leaf 941063036720000000000000000000000000000000)
 (.leaf 1043427967)))
 (.node 2 (.node 1 (.leaf 701059600360000000000000000000001048268359)
 (.leaf 681060407163000000000000000000001013548027))
 (.node 1 (.leaf 1062153815)
 (.leaf 811057040672000000000000000000000000000000))))
 (.node 4 (.node 2 (.node 1 (.leaf 1071121318)
 (.leaf 108132307000000000001027407371))
 (.node 1 (.leaf 621069214041000000000000000000000000000000)
 (.leaf 1019259049)))
 (.node 2 (.node 1 (.leaf 161065602948000000000000000000000000000000)
 (.leaf 321060609552000000000000000000000000000000))
 (.node 1 (.leaf 1048476794)
 (.leaf 831048875072000000000000000000000000000000)))))
 (.node 8 (.node 4 (.node 2 (.node 1 (.leaf 951068680216000000000000000000000000000000)
 (.leaf 11107505965000000000011075059650000000000))
 (.node 1 (.leaf 10610500988691121065550376000000000000000000001020211726)
 (.leaf 951053840913000000000000000000000000000000)))
 (.node 2 (.node 1 (.leaf 1004733834)
 (.leaf 1065533000))
 (.node 1 (.leaf 991074155960000000000000000000001017336402)
 (.leaf 1027159328))))
 (.node 4 (.node 2 (.node 1 (.leaf 1111057387583000000000000000000000999610745)
 (.leaf 1027679839))
 (.node 1 (.leaf 791056862150000000000000000000000000000000)
 (.leaf 481060178510000000000000000000001033774718)))
 (.node 2 (.node 1 (.leaf 109947319700000000000000000000)
 (.leaf 601093681620000000000000000000000000000000))
 (.node 1 (.leaf 6410354150630921071679995000000000000000000001058608758)
 (.leaf 1050438007))))))
 (.node 16 (.node 8 (.node 4 (.node 2 (.node 1 (.leaf 1061074626439000000000000000000000000000000)
 (.leaf 1042078849))
 (.node 1 (.leaf 991073828473000000000000000000000000000000)
 (.leaf 1049648583)))
 (.node 2 (.node 1 (.leaf 881079594226000000000000000000000000000000)
 (.leaf 1021475433))
 (.node 1 (.leaf 1071052748779000000000000000000001051183949)
 (.leaf 711053206344000000000000000000000000000000))))
 (.node 4 (.node 2 (.node 1 (.leaf 1043458375)
 (.leaf 1041053402))
 (.node 1 (.leaf 11052850833000000000010528508331070353647)
 (.leaf 1035653018)))
 (.node 2 (.node 1 (.leaf 1037261814)
 (.leaf 641075278061000000000000000000000000000000))
 (.node 1 (.leaf 741081563458000000000000000000000000000000)
 (.leaf 106872166200000000000000000000)))))
 (.node 8 (.node 4 (.node 2 (.node 1 (.leaf 100942361500000000000000000000)
 (.leaf 531063824696000000000000000000000000000000))
 (.node 1 (.leaf 105351850100000000000000000000)
 (.leaf 1161070039939000000000000000000000000000000)))
 (.node 2 (.node 1 (.leaf 1042691499)
 (.leaf 1101082611034000000000000000000000000000000))
 (.node 1 (.leaf 110380932100000000000000000000)
 (.leaf 1171047908703000000000000000000000000000000))))
 (.node 4 (.node 2 (.node 1 (.leaf 109207507400000000000000000000)
 (.leaf 1075068101))
 (.node 1 (.leaf 111036037900000000000000000000)
 (.leaf 107334630100000000000000000000)))
 (.node 2 (.node 1 (.leaf 1041088338)
 (.leaf 107610799900000000000000000000))
 (.node 1 (.leaf 110562236200000000000000000000)
 (.leaf 871034049354000000000000000000000000000000))))))))
 (.node 64 (.node 32 (.node 16 (.node 8 (.node 4 (.node 2 (.node 1 (.leaf 841051480709000000000000000000000000000000)
 (.leaf 1020367636))
 (.node 1 (.leaf 1034402673)
 (.leaf 871073829965000000000000000000000000000000)))
 (.node 2 (.node 1 (.leaf 1161073428929000000000000000000000000000000)
 (.leaf 1151043155165000000000000000000000000000000))
 (.node 1 (.leaf 107596753100000000000000000000)
 (.leaf 108120256800000000000000000000))))
 (.node 4 (.node 2 (.node 1 (.leaf 109457168100000000000000000000)
 (.leaf 107563882400000000000000000000))
 (.node 1 (.leaf 651034256708000000000000000000000000000000)
 (.leaf 711066184803000000000000000000000000000000)))
 (.node 2 (.node 1 (.leaf 108292330200000000000000000000)
 (.leaf 110154261500000000000000000000))
 (.node 1 (.leaf 108113046800000000000000000000)
 (.leaf 1060663238)))))
 (.node 8 (.node 4 (.node 2 (.node 1 (.leaf 111134863500000000000000000000)
 (.leaf 871090699489000000000000000000000000000000))
 (.node 1 (.leaf 103187978400000000000000000000)
 (.leaf 11100928826000000000011009288260000000000)))
 (.node 2 (.node 1 (.leaf 108189437700000000000000000000)
 (.leaf 11116646734000000000011166467340000000000))
 (.node 1 (.leaf 1067769860)
 (.leaf 108841261900000000000000000000))))
 (.node 4 (.node 2 (.node 1 (.leaf 109265897400000000000000000000)
 (.leaf 107965101100000000000000000000))
 (.node 1 (.leaf 611066617240000000000000000000001046942046)
 (.leaf 1024524487)))
 (.node 2 (.node 1 (.leaf 107944981000000000000000000000)
 (.leaf 111109558800000000000000000000))
 (.node 1 (.leaf 891068006848000000000000000000000000000000)
 (.leaf 531035735805000000000000000000000000000000))))))
 (.node 16 (.node 8 (.node 4 (.node 2 (.node 1 (.leaf 111420629300000000000000000000)
 (.leaf 861071314923000000000000000000000000000000))
 (.node 1 (.leaf 105927944400000000000000000000)
 (.leaf 701068615846000000000000000000000000000000)))
 (.node 2 (.node 1 (.leaf 981093329273000000000000000000000000000000)
 (.leaf 1059409340))
 (.node 1 (.leaf 111667579500000000000000000000)
 (.leaf 1019673155))))
 (.node 4 (.node 2 (.node 1 (.leaf 1048892003)
 (.leaf 781011686216000000000000000000000000000000))
 (.node 1 (.leaf 801042059850000000000000000000000000000000)
 (.leaf 1026604163)))
 (.node 2 (.node 1 (.leaf 621060324404000000000000000000001060924296)
 (.leaf 631094993492000000000000000000000000000000))
 (.node 1 (.leaf 990999321215000000000000000000000000000000)
 (.leaf 1001516226)))))
 (.node 8 (.node 4 (.node 2 (.node 1 (.leaf 1027262146)
 (.leaf 631088989875000000000000000000000000000000))
 (.node 1 (.leaf 711093050881000000000000000000000000000000)
 (.leaf 1040210682)))
 (.node 2 (.node 1 (.leaf 721076978838000000000000000000000000000000)
 (.leaf 1057346059))
 (.node 1 (.leaf 1048378978)
 (.leaf 1055369217))))
 (.node 4 (.node 2 (.node 1 (.leaf 1061039437)
 (.leaf 1042289675))
 (.node 1 (.leaf 801065353523000000000000000000000000000000)
 (.leaf 1029650113)))
 (.node 2 (.node 1 (.leaf 10010631792091021072539676000000000000000000000000000000)
 (.leaf 851082346672000000000000000000000000000000))
 (.node 1 (.leaf 841048774603000000000000000000000000000000)
 (.leaf 671079753460000000000000000000000000000000)))))))
 (.node 32 (.node 16 (.node 8 (.node 4 (.node 2 (.node 1 (.leaf 1038583375)
 (.leaf 105799214500000000000000000000))
 (.node 1 (.leaf 1022593812)
 (.leaf 103925860500000000000000000000)))
 (.node 2 (.node 1 (.leaf 1091045220021000000000000000000000000000000)
 (.leaf 986540366))
 (.node 1 (.leaf 110466689900000000000000000000)
 (.leaf 1012388484))))
 (.node 4 (.node 2 (.node 1 (.leaf 1007143748)
 (.leaf 1022681948))
 (.node 1 (.leaf 561056356644000000000000000000000000000000)
 (.leaf 108305028500000000000000000000)))
 (.node 2 (.node 1 (.leaf 1077863470)
 (.leaf 1044367818))
 (.node 1 (.leaf 8410738474820931077801223000000000000000000000000000000)
 (.leaf 109111640300000000000000000000)))))
 (.node 8 (.node 4 (.node 2 (.node 1 (.leaf 106593345600000000000000000000)
 (.leaf 105501539700000000000000000000))
 (.node 1 (.leaf 112011138800000000000000000000)
 (.leaf 112040345600000000000000000000)))
 (.node 2 (.node 1 (.leaf 112040345600000000000000000000)
 (.leaf 112040345600000000000000000000))
 (.node 1 (.leaf 11119802703000000000011198027030000000000)
 (.leaf 11120147753000000000011201477530000000000))))
 (.node 4 (.node 2 (.node 1 (.leaf 11120262381000000000011202623810000000000)
 (.leaf 110195328900000000000000000000))
 (.node 1 (.leaf 109072372200000000000000000000)
 (.leaf 109247609200000000000000000000)))
 (.node 2 (.node 1 (.leaf 107596069500000000000000000000)
 (.leaf 108808353300000000000000000000))
 (.node 1 (.leaf 110444208500000000000000000000)
 (.leaf 104812764600000000000000000000))))))
 (.node 16 (.node 8 (.node 4 (.node 2 (.node 1 (.leaf 108958989700000000000000000000)
 (.leaf 109090496800000000000000000000))
 (.node 1 (.leaf 110578704100000000000000000000)
 (.leaf 651094429318000000000000000000000000000000)))
 (.node 2 (.node 1 (.leaf 108640780400000000000000000000)
 (.leaf 109149096500000000000000000000))
 (.node 1 (.leaf 107504256200000000000000000000)
 (.leaf 108757820400000000000000000000))))
 (.node 4 (.node 2 (.node 1 (.leaf 110861008980721092483568000000000010861008980000000000)
 (.leaf 111799181000000000000000000000))
 (.node 1 (.leaf 108344329100000000000000000000)
 (.leaf 11087813615000000000010878136150000000000)))
 (.node 2 (.node 1 (.leaf 11106787185000000000011067871850000000000)
 (.leaf 109684562300000000000000000000))
 (.node 1 (.leaf 110749682200000000000000000000)
 (.leaf 111830174300000000000000000000)))))
 (.node 8 (.node 4 (.node 2 (.node 1 (.leaf 109383012800000000000000000000)
 (.leaf 109364138500000000000000000000))
 (.node 1 (.leaf 109744813500000000000000000000)
 (.leaf 5710738676390631085389267000000000000000000000000000000)))
 (.node 2 (.node 1 (.leaf 109096945600000000000000000000)
 (.leaf 111623687400000000000000000000))
 (.node 1 (.leaf 501069456078000000000000000000000000000000)
 (.leaf 104934788600000000000000000000))))
 (.node 4 (.node 2 (.node 1 (.leaf 107802022400000000000000000000)
 (.leaf 109381775500000000000000000000))
 (.node 1 (.leaf 11095111058107911317610951110580000000000)
 (.leaf 103320200400000000000000000000)))
 (.node 2 (.node 1 (.leaf 110010680000000000000000000000)
 (.leaf 109826413700000000000000000000))
 (.node 1 (.leaf 111239925600000000000000000000)
 (.leaf 11080088131000000000010800881310000000000)))))))))
 (.node 128 (.node 64 (.node 32 (.node 16 (.node 8 (.node 4 (.node 2 (.node 1 (.leaf 11108147211000000000011081472110000000000)
 (.leaf 105880876000000000000000000000))
 (.node 1 (.leaf 106278069800000000000000000000)
 (.leaf 103543650100000000000000000000)))
 (.node 2 (.node 1 (.leaf 109047307000000000000000000000)
 (.leaf 109203469400000000000000000000))
 (.node 1 (.leaf 11080262789108379037010802627890000000000)
 (.leaf 107787954700000000000000000000))))
 (.node 4 (.node 2 (.node 1 (.leaf 98127955800000000000000000000)
 (.leaf 108061201000000000000000000000))
 (.node 1 (.leaf 109616677500000000000000000000)
 (.leaf 11084462180000000000010844621800000000000)))
 (.node 2 (.node 1 (.leaf 109200289000000000000000000000)
 (.leaf 106775093200000000000000000000))
 (.node 1 (.leaf 106509132400000000000000000000)
 (.leaf 11069466709000000000010694667090000000000)))))
 (.node 8 (.node 4 (.node 2 (.node 1 (.leaf 106751462500000000000000000000)
 (.leaf 110669442600000000000000000000))
 (.node 1 (.leaf 106747419200000000000000000000)
 (.leaf 107779574500000000000000000000)))
 (.node 2 (.node 1 (.leaf 108972736500000000000000000000)
 (.leaf 11099259861000000000010992598610000000000))
 (.node 1 (.leaf 108052678200000000000000000000)
 (.leaf 110568679700000000000000000000))))
 (.node 4 (.node 2 (.node 1 (.leaf 108313851200000000000000000000)
 (.leaf 109310839400000000000000000000))
 (.node 1 (.leaf 105465703600000000000000000000)
 (.leaf 110132744700000000000000000000)))
 (.node 2 (.node 1 (.leaf 97426434700000000000000000000)
 (.leaf 11077514232000000000010775142320000000000))
 (.node 1 (.leaf 108741301100000000000000000000)
 (.leaf 109105045800000000000000000000))))))
 (.node 16 (.node 8 (.node 4 (.node 2 (.node 1 (.leaf 108348183700000000000000000000)
 (.leaf 111590383300000000000000000000))
 (.node 1 (.leaf 106151765900000000000000000000)
 (.leaf 109203461000000000000000000000)))
 (.node 2 (.node 1 (.leaf 11108549224105941683311085492240000000000)
 (.leaf 671086506932000000000000000000000000000000))
 (.node 1 (.leaf 107585290100000000000000000000)
 (.leaf 771059249053000000000000000000000000000000))))
 (.node 4 (.node 2 (.node 1 (.leaf 107108146100000000000000000000)
 (.leaf 106178322600000000000000000000))
 (.node 1 (.leaf 97169478400000000000000000000)
 (.leaf 109701287100000000000000000000)))
 (.node 2 (.node 1 (.leaf 591028595121000000000000000000000000000000)
 (.leaf 109509303300000000000000000000))
 (.node 1 (.leaf 110911975600000000000000000000)
 (.leaf 110533437000000000000000000000)))))
 (.node 8 (.node 4 (.node 2 (.node 1 (.leaf 721014456533000000000000000000000000000000)
 (.leaf 109785844300000000000000000000))
 (.node 1 (.leaf 108799587300000000000000000000)
 (.leaf 108851804200000000000000000000)))
 (.node 2 (.node 1 (.leaf 110855520300000000000000000000)
 (.leaf 781058062738000000000000000000000000000000))
 (.node 1 (.leaf 108514211000000000000000000000)
 (.leaf 771102383250000000000000000000000000000000))))
 (.node 4 (.node 2 (.node 1 (.leaf 811093360211000000000000000000000000000000)
 (.leaf 711086993657108606456300000000000000000000))
 (.node 1 (.leaf 521074526259103975641900000000000000000000)
 (.leaf 108192105200000000000000000000)))
 (.node 2 (.node 1 (.leaf 620959499058000000000000000000000000000000)
 (.leaf 109360458000000000000000000000))
 (.node 1 (.leaf 108009611100000000000000000000)
 (.leaf 106175049300000000000000000000)))))))
 (.node 32 (.node 16 (.node 8 (.node 4 (.node 2 (.node 1 (.leaf 11007212739000000000010072127390000000000)
 (.leaf 551077272561000000000000000000000000000000))
 (.node 1 (.leaf 109404194100000000000000000000)
 (.leaf 110307987900000000000000000000)))
 (.node 2 (.node 1 (.leaf 11093353662000000000010933536620000000000)
 (.leaf 721085455416000000000000000000000000000000))
 (.node 1 (.leaf 108552148500000000000000000000)
 (.leaf 581073278209000000000000000000000000000000))))
 (.node 4 (.node 2 (.node 1 (.leaf 1051762794)
 (.leaf 108658725700000000000000000000))
 (.node 1 (.leaf 901044905706000000000000000000000000000000)
 (.leaf 1068901449)))
 (.node 2 (.node 1 (.leaf 11099589328000000000010995893280000000000)
 (.leaf 11080560260000000000010805602600000000000))
 (.node 1 (.leaf 107742060600000000000000000000)
 (.leaf 421067617724101953740400000000000000000000)))))
 (.node 8 (.node 4 (.node 2 (.node 1 (.leaf 109640973000000000000000000000)
 (.leaf 111103511100000000000000000000))
 (.node 1 (.leaf 109316008800000000000000000000)
 (.leaf 291098850681104090740300000000000000000000)))
 (.node 2 (.node 1 (.leaf 109753894200000000000000000000)
 (.leaf 1048809402))
 (.node 1 (.leaf 108572199400000000000000000000)
 (.leaf 431077749873000000000000000000000000000000))))
 (.node 4 (.node 2 (.node 1 (.leaf 65105095119706910835866570751089942983000000000000000000001055308962)
 (.leaf 1051592768))
 (.node 1 (.leaf 108498528500000000000000000000)
 (.leaf 107478176000000000000000000000)))
 (.node 2 (.node 1 (.leaf 1061085233274000000000000000000000000000000)
 (.leaf 731082367733000000000000000000000000000000))
 (.node 1 (.leaf 111275582400000000000000000000)
 (.leaf 106952369600000000000000000000))))))
 (.node 16 (.node 8 (.node 4 (.node 2 (.node 1 (.leaf 11050049740000000000010500497401074832487)
 (.leaf 1057821395))
 (.node 1 (.leaf 1063766918)
 (.leaf 1048889230)))
 (.node 2 (.node 1 (.leaf 491089825595000000000000000000000000000000)
 (.leaf 341074837974000000000000000000000000000000))
 (.node 1 (.leaf 106600526200000000000000000000)
 (.leaf 791073639844000000000000000000000000000000))))
 (.node 4 (.node 2 (.node 1 (.leaf 1058510377)
 (.leaf 111514317000000000000000000000))
 (.node 1 (.leaf 520999205334000000000000000000000000000000)
 (.leaf 107188307600000000000000000000)))
 (.node 2 (.node 1 (.leaf 1068748162)
 (.leaf 1041758125))
 (.node 1 (.leaf 107318985400000000000000000000)
 (.leaf 110110666900000000000000000000)))))
 (.node 8 (.node 4 (.node 2 (.node 1 (.leaf 110083466900000000000000000000)
 (.leaf 531053884103000000000000000000000000000000))
 (.node 1 (.leaf 110841555800000000000000000000)
 (.leaf 301073334343000000000000000000001025211767)))
 (.node 2 (.node 1 (.leaf 108701721600000000000000000000)
 (.leaf 110314190300000000000000000000))
 (.node 1 (.leaf 111749114100000000000000000000)
 (.leaf 661074221079000000000000000000000000000000))))
 (.node 4 (.node 2 (.node 1 (.leaf 1051033360)
 (.leaf 111951889000000000000000000000))
 (.node 1 (.leaf 1037560481)
 (.leaf 1039335232)))
 (.node 2 (.node 1 (.leaf 106188486200000000000000000000)
 (.leaf 104826844000000000000000000000))
 (.node 1 (.leaf 109511694100000000000000000000)
 (.leaf 1031104731))))))))
 (.node 64 (.node 32 (.node 16 (.node 8 (.node 4 (.node 2 (.node 1 (.leaf 111656315100000000000000000000)
 (.leaf 105104366000000000000000000000))
 (.node 1 (.leaf 109295593100000000000000000000)
 (.leaf 1049581197)))
 (.node 2 (.node 1 (.leaf 111844501700000000001044810352)
 (.leaf 1053667709))
 (.node 1 (.leaf 1071205719)
 (.leaf 1060686150))))
 (.node 4 (.node 2 (.node 1 (.leaf 1060327238)
 (.leaf 1051077099873000000000000000000000000000000))
 (.node 1 (.leaf 411074659377000000000000000000000000000000)
 (.leaf 1031214691)))
 (.node 2 (.node 1 (.leaf 109948782500000000001005264549)
 (.leaf 1042977070))
 (.node 1 (.leaf 1056858069)
 (.leaf 581058294399000000000000000000001040742462)))))
 (.node 8 (.node 4 (.node 2 (.node 1 (.leaf 1046334209)
 (.leaf 1063147510))
 (.node 1 (.leaf 1051303048)
 (.leaf 1073922726)))
 (.node 2 (.node 1 (.leaf 631072233049000000000000000000001041498430)
 (.leaf 1057943975))
 (.node 1 (.leaf 811049820105000000000000000000001031749594)
 (.leaf 1063302009))))
 (.node 4 (.node 2 (.node 1 (.leaf 1069378904)
 (.leaf 1045922600))
 (.node 1 (.leaf 561063495225000000000000000000000000000000)
 (.leaf 1028749028)))
 (.node 2 (.node 1 (.leaf 1046586625)
 (.leaf 1058740575))
 (.node 1 (.leaf 561066812024000000000000000000000000000000)
 (.leaf 1063332597))))))
 (.node 16 (.node 8 (.node 4 (.node 2 (.node 1 (.leaf 1046620405)
 (.leaf 96831224000000000000000000000))
 (.node 1 (.leaf 3110674393810781084228040000000000000000000000000000000)
 (.leaf 108091177700000000000000000000)))
 (.node 2 (.node 1 (.leaf 691068480948000000000000000000000000000000)
 (.leaf 1035563082))
 (.node 1 (.leaf 1081026370620000000000000000000001049498910)
 (.leaf 109438126000000000000000000000))))
 (.node 4 (.node 2 (.node 1 (.leaf 110493863800000000000000000000)
 (.leaf 1049888626))
 (.node 1 (.leaf 1033529364)
 (.leaf 971038183458000000000000000000000000000000)))
 (.node 2 (.node 1 (.leaf 110424652500000000000000000000)
 (.leaf 107354251100000000000000000000))
 (.node 1 (.leaf 110039767400000000000000000000)
 (.leaf 1038810312)))))
 (.node 8 (.node 4 (.node 2 (.node 1 (.leaf 1046484329)
 (.leaf 511071018081000000000000000000001071099067))
 (.node 1 (.leaf 631048579637000000000000000000000000000000)
 (.leaf 1025681752)))
 (.node 2 (.node 1 (.leaf 701058798207000000000000000000001056100928)
 (.leaf 621027170348000000000000000000000000000000))
 (.node 1 (.leaf 4210543364510791082240280000000000000000000001057206779)
 (.leaf 631058361621000000000000000000000000000000))))
 (.node 4 (.node 2 (.node 1 (.leaf 1048757284)
 (.leaf 1019835879))
 (.node 1 (.leaf 1049759552)
 (.leaf 107383523100000000000000000000)))
 (.node 2 (.node 1 (.leaf 1043993099)
 (.leaf 1021070087177000000000000000000001056368624))
 (.node 1 (.leaf 107170834200000000000000000000)
 (.leaf 1051373378)))))))
 (.node 32 (.node 16 (.node 8 (.node 4 (.node 2 (.node 1 (.leaf 641069129600000000000000000000001065551588)
 (.leaf 11109578045000000000011095780450000000000))
 (.node 1 (.leaf 291057201436000000000000000000000000000000)
 (.leaf 1049418783)))
 (.node 2 (.node 1 (.leaf 671087237121000000000000000000000000000000)
 (.leaf 1047660045))
 (.node 1 (.leaf 701087364238000000000000000000000000000000)
 (.leaf 931032841875000000000000000000001049832673))))
 (.node 4 (.node 2 (.node 1 (.leaf 1043469967)
 (.leaf 996242230))
 (.node 1 (.leaf 621006170276000000000000000000000000000000)
 (.leaf 761068014807000000000000000000000000000000)))
 (.node 2 (.node 1 (.leaf 1131068506887000000000000000000000000000000)
 (.leaf 6510450361560661094341306000000000000000000000000000000))
 (.node 1 (.leaf 109094737300000000000000000000)
 (.leaf 1059837348)))))
 (.node 8 (.node 4 (.node 2 (.node 1 (.leaf 108899407500000000000000000000)
 (.leaf 1050235448))
 (.node 1 (.leaf 1050455046)
 (.leaf 9410598462221001069372571000000000000000000001013826716)))
 (.node 2 (.node 1 (.leaf 1042469277)
 (.leaf 1005975813))
 (.node 1 (.leaf 1042851182)
 (.leaf 107453010100000000000000000000))))
 (.node 4 (.node 2 (.node 1 (.leaf 1018900726)
 (.leaf 811069721323000000000000000000000000000000))
 (.node 1 (.leaf 1131058147161000000000000000000000000000000)
 (.leaf 831063937950000000000000000000000000000000)))
 (.node 2 (.node 1 (.leaf 1068601693)
 (.leaf 561079739261000000000000000000000000000000))
 (.node 1 (.leaf 11077012896000000000010770128960000000000)
 (.leaf 1016875074))))))
 (.node 16 (.node 8 (.node 4 (.node 2 (.node 1 (.leaf 901075329886000000000000000000001025483540)
 (.leaf 951065689443000000000000000000000000000000))
 (.node 1 (.leaf 1002656130)
 (.leaf 641074816144000000000000000000001049122689)))
 (.node 2 (.node 1 (.leaf 1091057317934000000000000000000000000000000)
 (.leaf 108198950300000000001023465934))
 (.node 1 (.leaf 6610611532601061061237891000000000000000000001035526217)
 (.leaf 1054847392))))
 (.node 4 (.node 2 (.node 1 (.leaf 1034881774)
 (.leaf 1038691711))
 (.node 1 (.leaf 1066114189)
 (.leaf 1101043247163000000000000000000000000000000)))
 (.node 2 (.node 1 (.leaf 1052514711)
 (.leaf 1059357996))
 (.node 1 (.leaf 711078913003000000000000000000000000000000)
 (.leaf 1070351632)))))
 (.node 8 (.node 4 (.node 2 (.node 1 (.leaf 108260046700000000000000000000)
 (.leaf 311050726435000000000000000000001047949804))
 (.node 1 (.leaf 861064982548000000000000000000000000000000)
 (.leaf 641084380443000000000000000000000000000000)))
 (.node 2 (.node 1 (.leaf 801052506158000000000000000000000000000000)
 (.leaf 8209972504511001086307401000000000000000000000000000000))
 (.node 1 (.leaf 531093333313000000000000000000000000000000)
 (.leaf 991068123008000000000000000000000000000000))))
 (.node 4 (.node 2 (.node 1 (.leaf 1024814213)
 (.leaf 107482559000000000000000000000))
 (.node 1 (.leaf 1171087103483000000000000000000000000000000)
 (.leaf 1010808758)))
 (.node 2 (.node 1 (.leaf 111749544000000000000000000000)
 (.leaf 109474857600000000000000000000))
 (.node 1 (.leaf 105317832600000000000000000000)
 (.leaf 1044625564))))))))))
 (.node 256 (.node 128 (.node 64 (.node 32 (.node 16 (.node 8 (.node 4 (.node 2 (.node 1 (.leaf 341038545078000000000000000000000000000000)
 (.leaf 821087886614000000000000000000000000000000))
 (.node 1 (.leaf 108030461000000000000000000000)
 (.leaf 841080713866000000000000000000000000000000)))
 (.node 2 (.node 1 (.leaf 831069101692000000000000000000000000000000)
 (.leaf 721068801960000000000000000000000000000000))
 (.node 1 (.leaf 1161076015147000000000000000000000000000000)
 (.leaf 107434785900000000000000000000))))
 (.node 4 (.node 2 (.node 1 (.leaf 108191111200000000000000000000)
 (.leaf 106688363400000000000000000000))
 (.node 1 (.leaf 109918536300000000000000000000)
 (.leaf 110746229800000000000000000000)))
 (.node 2 (.node 1 (.leaf 11118589892000000000011185898920000000000)
 (.leaf 109470506000000000000000000000))
 (.node 1 (.leaf 109576118600000000000000000000)
 (.leaf 109136960300000000000000000000)))))
 (.node 8 (.node 4 (.node 2 (.node 1 (.leaf 1041365743)
 (.leaf 1031292950))
 (.node 1 (.leaf 111773161900000000000000000000)
 (.leaf 110446394700000000000000000000)))
 (.node 2 (.node 1 (.leaf 111253635700000000000000000000)
 (.leaf 110060953900000000000000000000))
 (.node 1 (.leaf 9810866807971021090820937000000000000000000000000000000)
 (.leaf 1006892505))))
 (.node 4 (.node 2 (.node 1 (.leaf 111676109600000000000000000000)
 (.leaf 1009693204))
 (.node 1 (.leaf 711058777810000000000000000000000000000000)
 (.leaf 971067053796000000000000000000000000000000)))
 (.node 2 (.node 1 (.leaf 781063254648000000000000000000000000000000)
 (.leaf 621098962039000000000000000000000000000000))
 (.node 1 (.leaf 1062334842)
 (.leaf 5610512891080631089761737000000000000000000000000000000))))))
 (.node 16 (.node 8 (.node 4 (.node 2 (.node 1 (.leaf 6510699269150691075164090000000000000000000000000000000)
 (.leaf 1068925099))
 (.node 1 (.leaf 731076430990000000000000000000000000000000)
 (.leaf 881074895643000000000000000000000000000000)))
 (.node 2 (.node 1 (.leaf 801069236962000000000000000000000000000000)
 (.leaf 851086934793000000000000000000000000000000))
 (.node 1 (.leaf 1001080430719000000000000000000000000000000)
 (.leaf 1053092825))))
 (.node 4 (.node 2 (.node 1 (.leaf 1091040302544000000000000000000001059268425)
 (.leaf 461090023911000000000000000000000000000000))
 (.node 1 (.leaf 111493843500000000000000000000)
 (.leaf 1063113222)))
 (.node 2 (.node 1 (.leaf 1008648459)
 (.leaf 106165425900000000000000000000))
 (.node 1 (.leaf 931073869189000000000000000000000000000000)
 (.leaf 108338150900000000000000000000)))))
 (.node 8 (.node 4 (.node 2 (.node 1 (.leaf 109593241800000000000000000000)
 (.leaf 112025415200000000000000000000))
 (.node 1 (.leaf 112040345600000000000000000000)
 (.leaf 11120403456000000000011204034560000000000)))
 (.node 2 (.node 1 (.leaf 11120403456000000000011204034560000000000)
 (.leaf 110106131800000000000000000000))
 (.node 1 (.leaf 107936131100000000000000000000)
 (.leaf 110726831100000000000000000000))))
 (.node 4 (.node 2 (.node 1 (.leaf 107060607800000000000000000000)
 (.leaf 109467171600000000000000000000))
 (.node 1 (.leaf 109894466300000000000000000000)
 (.leaf 109984324000000000000000000000)))
 (.node 2 (.node 1 (.leaf 109213933100000000000000000000)
 (.leaf 651101385600000000000000000000000000000000))
 (.node 1 (.leaf 109645817400000000000000000000)
 (.leaf 701061291221000000000000000000000000000000)))))))
 (.node 32 (.node 16 (.node 8 (.node 4 (.node 2 (.node 1 (.leaf 109978724600000000000000000000)
 (.leaf 110805684100000000000000000000))
 (.node 1 (.leaf 701087302551000000000000000000000000000000)
 (.leaf 110908627240721091477772000000000010908627240000000000)))
 (.node 2 (.node 1 (.leaf 110180491600000000000000000000)
 (.leaf 11052705213000000000010527052130000000000))
 (.node 1 (.leaf 111245401800000000000000000000)
 (.leaf 111582435100000000000000000000))))
 (.node 4 (.node 2 (.node 1 (.leaf 110840793000000000000000000000)
 (.leaf 109474239000000000000000000000))
 (.node 1 (.leaf 110011240900000000000000000000)
 (.leaf 107237422900000000000000000000)))
 (.node 2 (.node 1 (.leaf 110564259900000000000000000000)
 (.leaf 106559254300000000000000000000))
 (.node 1 (.leaf 109137033700000000000000000000)
 (.leaf 109167446600000000000000000000)))))
 (.node 8 (.node 4 (.node 2 (.node 1 (.leaf 109131949100000000000000000000)
 (.leaf 11107568011000000000011075680110000000000))
 (.node 1 (.leaf 109653514000000000000000000000)
 (.leaf 11085580282000000000010855802820000000000)))
 (.node 2 (.node 1 (.leaf 111617334300000000000000000000)
 (.leaf 109424945400000000000000000000))
 (.node 1 (.leaf 104967547800000000000000000000)
 (.leaf 11103194213107681893311031942130000000000))))
 (.node 4 (.node 2 (.node 1 (.leaf 11089315857109134809710893158570000000000)
 (.leaf 109177668100000000000000000000))
 (.node 1 (.leaf 110283713400000000000000000000)
 (.leaf 11095892880000000000010958928800000000000)))
 (.node 2 (.node 1 (.leaf 109480687700000000000000000000)
 (.leaf 111706096300000000000000000000))
 (.node 1 (.leaf 109128767800000000000000000000)
 (.leaf 108796538000000000000000000000))))))
 (.node 16 (.node 8 (.node 4 (.node 2 (.node 1 (.leaf 109080520700000000000000000000)
 (.leaf 108493698800000000000000000000))
 (.node 1 (.leaf 109841922100000000000000000000)
 (.leaf 110186966500000000000000000000)))
 (.node 2 (.node 1 (.leaf 106389426900000000000000000000)
 (.leaf 11092459676000000000010924596760000000000))
 (.node 1 (.leaf 11074453086000000000010744530860000000000)
 (.leaf 107822394100000000000000000000))))
 (.node 4 (.node 2 (.node 1 (.leaf 109740587700000000000000000000)
 (.leaf 110675854600000000000000000000))
 (.node 1 (.leaf 106880017900000000000000000000)
 (.leaf 107139527900000000000000000000)))
 (.node 2 (.node 1 (.leaf 1079959401)
 (.leaf 108578457300000000000000000000))
 (.node 1 (.leaf 109940787100000000000000000000)
 (.leaf 411090870732000000000000000000000000000000)))))
 (.node 8 (.node 4 (.node 2 (.node 1 (.leaf 109007972900000000000000000000)
 (.leaf 110120780400000000000000000000))
 (.node 1 (.leaf 109073699700000000000000000000)
 (.leaf 771082568519000000000000000000000000000000)))
 (.node 2 (.node 1 (.leaf 106795209100000000000000000000)
 (.leaf 106046304300000000000000000000))
 (.node 1 (.leaf 671106925351000000000000000000000000000000)
 (.leaf 107153302000000000000000000000))))
 (.node 4 (.node 2 (.node 1 (.leaf 105930878800000000000000000000)
 (.leaf 106216562900000000000000000000))
 (.node 1 (.leaf 107587513100000000000000000000)
 (.leaf 109632920000000000000000000000)))
 (.node 2 (.node 1 (.leaf 721090801754000000000000000000000000000000)
 (.leaf 641087561530000000000000000000000000000000))
 (.node 1 (.leaf 108207263400000000000000000000)
 (.leaf 108823058600000000000000000000))))))))
 (.node 64 (.node 32 (.node 16 (.node 8 (.node 4 (.node 2 (.node 1 (.leaf 781097280750000000000000000000000000000000)
 (.leaf 108014136700000000000000000000))
 (.node 1 (.leaf 109966875700000000000000000000)
 (.leaf 811111528469000000000000000000000000000000)))
 (.node 2 (.node 1 (.leaf 711101976028000000000000000000000000000000)
 (.leaf 811068224683000000000000000000000000000000))
 (.node 1 (.leaf 11108279641000000000011082796410000000000)
 (.leaf 105942502000000000000000000000))))
 (.node 4 (.node 2 (.node 1 (.leaf 108133187800000000000000000000)
 (.leaf 108381362700000000000000000000))
 (.node 1 (.leaf 551062156622000000000000000000000000000000)
 (.leaf 641058900876000000000000000000000000000000)))
 (.node 2 (.node 1 (.leaf 11113047725000000000011130477250000000000)
 (.leaf 108456746900000000000000000000))
 (.node 1 (.leaf 106297098600000000000000000000)
 (.leaf 831070094021000000000000000000000000000000)))))
 (.node 8 (.node 4 (.node 2 (.node 1 (.leaf 581091231108000000000000000000000000000000)
 (.leaf 105630254600000000000000000000))
 (.node 1 (.leaf 108533676800000000000000000000)
 (.leaf 108830629300000000000000000000)))
 (.node 2 (.node 1 (.leaf 109440600600000000000000000000)
 (.leaf 1034325758))
 (.node 1 (.leaf 1041573532)
 (.leaf 1075693904))))
 (.node 4 (.node 2 (.node 1 (.leaf 1065687562)
 (.leaf 1051908926))
 (.node 1 (.leaf 421091317933000000000000000000000000000000)
 (.leaf 109789640100000000000000000000)))
 (.node 2 (.node 1 (.leaf 11081845606000000000010818456060000000000)
 (.leaf 1025747733))
 (.node 1 (.leaf 1091089941636000000000000000000000000000000)
 (.leaf 291101884789000000000000000000000000000000))))))
 (.node 16 (.node 8 (.node 4 (.node 2 (.node 1 (.leaf 1013758953)
 (.leaf 108788774300000000000000000000))
 (.node 1 (.leaf 110023320500000000000000000000)
 (.leaf 102094873000000000000000000000)))
 (.node 2 (.node 1 (.leaf 11033370240000000000010333702400000000000)
 (.leaf 1073874318))
 (.node 1 (.leaf 1062020383)
 (.leaf 641050308208000000000000000000000000000000))))
 (.node 4 (.node 2 (.node 1 (.leaf 108569791800000000000000000000)
 (.leaf 1061059413816000000000000000000000000000000))
 (.node 1 (.leaf 1060351577)
 (.leaf 11097735337000000000010977353370000000000)))
 (.node 2 (.node 1 (.leaf 731059260693000000000000000000000000000000)
 (.leaf 531040872183000000000000000000000000000000))
 (.node 1 (.leaf 11092602608000000000010926026080000000000)
 (.leaf 341025815592000000000000000000000000000000)))))
 (.node 8 (.node 4 (.node 2 (.node 1 (.leaf 1044745547)
 (.leaf 1040381429))
 (.node 1 (.leaf 571065416888000000000000000000000000000000)
 (.leaf 531077130226000000000000000000001071957133)))
 (.node 2 (.node 1 (.leaf 111137503300000000000000000000)
 (.leaf 110674517700000000000000000000))
 (.node 1 (.leaf 1059914990)
 (.leaf 731076639071000000000000000000000000000000))))
 (.node 4 (.node 2 (.node 1 (.leaf 111158110500000000000000000000)
 (.leaf 661037212854000000000000000000000000000000))
 (.node 1 (.leaf 111913369600000000000000000000)
 (.leaf 1054681665)))
 (.node 2 (.node 1 (.leaf 109944053400000000000000000000)
 (.leaf 1066976420))
 (.node 1 (.leaf 111982612300000000000000000000)
 (.leaf 411057910053000000000000000000000000000000)))))))
 (.node 32 (.node 16 (.node 8 (.node 4 (.node 2 (.node 1 (.leaf 1068788098)
 (.leaf 1031869646))
 (.node 1 (.leaf 1023453769)
 (.leaf 1050832226)))
 (.node 2 (.node 1 (.leaf 1010874368)
 (.leaf 108469514400000000001020819287))
 (.node 1 (.leaf 1036774617)
 (.leaf 1031977998))))
 (.node 4 (.node 2 (.node 1 (.leaf 711067755880000000000000000000000000000000)
 (.leaf 1056840808))
 (.node 1 (.leaf 691075125488000000000000000000000000000000)
 (.leaf 107412044400000000000000000000)))
 (.node 2 (.node 1 (.leaf 1029637778)
 (.leaf 1049039243))
 (.node 1 (.leaf 1050742389)
 (.leaf 631051414274000000000000000000001031161274)))))
 (.node 8 (.node 4 (.node 2 (.node 1 (.leaf 1037103046)
 (.leaf 1021557415))
 (.node 1 (.leaf 1033334840)
 (.leaf 1047586266)))
 (.node 2 (.node 1 (.leaf 1034500434)
 (.leaf 1054793814))
 (.node 1 (.leaf 103690348700000000000000000000)
 (.leaf 56103522860806110748814530891075701340000000000000000000001040223255))))
 (.node 4 (.node 2 (.node 1 (.leaf 1046279677)
 (.leaf 108318955700000000000000000000))
 (.node 1 (.leaf 1064747371)
 (.leaf 311086134497000000000000000000000000000000)))
 (.node 2 (.node 1 (.leaf 108388247700000000000000000000)
 (.leaf 6810695126510691071531708000000000000000000000000000000))
 (.node 1 (.leaf 1081058850133000000000000000000001058754862)
 (.leaf 111392354500000000000000000000))))))
 (.node 16 (.node 8 (.node 4 (.node 2 (.node 1 (.leaf 107439676500000000000000000000)
 (.leaf 1131064448690000000000000000000001048862501))
 (.node 1 (.leaf 1049107274)
 (.leaf 401080010031000000000000000000000000000000)))
 (.node 2 (.node 1 (.leaf 111659062400000000000000000000)
 (.leaf 5410644996650671067245599000000000000000000000000000000))
 (.node 1 (.leaf 1050250665)
 (.leaf 751043275481000000000000000000000000000000))))
 (.node 4 (.node 2 (.node 1 (.leaf 4010516245560421083647096000000000000000000000000000000)
 (.leaf 1030189366))
 (.node 1 (.leaf 631050782426000000000000000000000000000000)
 (.leaf 104115141100000000000000000000)))
 (.node 2 (.node 1 (.leaf 1044131123)
 (.leaf 671059323879000000000000000000001027911328))
 (.node 1 (.leaf 1025551705)
 (.leaf 104979962900000000000000000000)))))
 (.node 8 (.node 4 (.node 2 (.node 1 (.leaf 109106655400000000000000000000)
 (.leaf 831070671679000000000000000000000000000000))
 (.node 1 (.leaf 1049959015)
 (.leaf 291034757306000000000000000000000000000000)))
 (.node 2 (.node 1 (.leaf 641060553348000000000000000000001055634590)
 (.leaf 421098597171000000000000000000000000000000))
 (.node 1 (.leaf 1131068517847000000000000000000000000000000)
 (.leaf 1034742426))))
 (.node 4 (.node 2 (.node 1 (.leaf 1071874200)
 (.leaf 7610494874660961063078498000000000000000000001027778407))
 (.node 1 (.leaf 931073190667000000000000000000000000000000)
 (.leaf 1131072058799000000000000000000000000000000)))
 (.node 2 (.node 1 (.leaf 5210549505490691064291704000000000000000000000000000000)
 (.leaf 621083801441000000000000000000000000000000))
 (.node 1 (.leaf 109294617900000000000000000000)
 (.leaf 110891384200000000000000000000)))))))))
 (.node 128 (.node 64 (.node 32 (.node 16 (.node 8 (.node 4 (.node 2 (.node 1 (.leaf 1043978894)
 (.leaf 109436920100000000000000000000))
 (.node 1 (.leaf 1033360310)
 (.leaf 1003012791)))
 (.node 2 (.node 1 (.leaf 681060230585000000000000000000000000000000)
 (.leaf 1050522972))
 (.node 1 (.leaf 581074459310000000000000000000000000000000)
 (.leaf 1091067718183000000000000000000000000000000))))
 (.node 4 (.node 2 (.node 1 (.leaf 1048504541)
 (.leaf 1031680643))
 (.node 1 (.leaf 999230745)
 (.leaf 999228597)))
 (.node 2 (.node 1 (.leaf 941070020690000000000000000000000000000000)
 (.leaf 1080463535))
 (.node 1 (.leaf 1054327051)
 (.leaf 1059510628)))))
 (.node 8 (.node 4 (.node 2 (.node 1 (.leaf 1001035620224000000000000000000000000000000)
 (.leaf 1051067266751000000000000000000000000000000))
 (.node 1 (.leaf 106754507500000000000000000000)
 (.leaf 1111043733405000000000000000000001049058705)))
 (.node 2 (.node 1 (.leaf 1041386413)
 (.leaf 107619209400000000000000000000))
 (.node 1 (.leaf 11210090914301161061429819000000000000000000000000000000)
 (.leaf 973236240))))
 (.node 4 (.node 2 (.node 1 (.leaf 1101066883088000000000000000000000000000000)
 (.leaf 1046610363))
 (.node 1 (.leaf 1048468994)
 (.leaf 311079567214000000000000000000001036242491)))
 (.node 2 (.node 1 (.leaf 1111075749640000000000000000000000000000000)
 (.leaf 641076615560000000000000000000000000000000))
 (.node 1 (.leaf 821078111957000000000000000000000000000000)
 (.leaf 105145946700000000000000000000))))))
 (.node 16 (.node 8 (.node 4 (.node 2 (.node 1 (.leaf 108400568400000000000000000000)
 (.leaf 991075986080000000000000000000001045411531))
 (.node 1 (.leaf 891073181647000000000000000000000000000000)
 (.leaf 881076590197000000000000000000000000000000)))
 (.node 2 (.node 1 (.leaf 110960037100000000000000000000)
 (.leaf 821082831839000000000000000000000000000000))
 (.node 1 (.leaf 921083544036000000000000000000000000000000)
 (.leaf 341081670796000000000000000000000000000000))))
 (.node 4 (.node 2 (.node 1 (.leaf 104172646700000000000000000000)
 (.leaf 881075455221000000000000000000000000000000))
 (.node 1 (.leaf 841084031287000000000000000000001038674957)
 (.leaf 721093175689000000000000000000000000000000)))
 (.node 2 (.node 1 (.leaf 861084978766000000000000000000000000000000)
 (.leaf 801074226047000000000000000000000000000000))
 (.node 1 (.leaf 110020646700000000000000000000)
 (.leaf 108691751700000000000000000000)))))
 (.node 8 (.node 4 (.node 2 (.node 1 (.leaf 109207684600000000000000000000)
 (.leaf 11119902897000000000011199028970000000000))
 (.node 1 (.leaf 107888261500000000000000000000)
 (.leaf 110369817200000000000000000000)))
 (.node 2 (.node 1 (.leaf 108339507800000000000000000000)
 (.leaf 111109065900000000000000000000))
 (.node 1 (.leaf 110286450200000000000000000000)
 (.leaf 1030835203))))
 (.node 4 (.node 2 (.node 1 (.leaf 831080963876000000000000000000001034173660)
 (.leaf 111711362700000000000000000000))
 (.node 1 (.leaf 691050146138000000000000000000000000000000)
 (.leaf 110747126300000000000000000000)))
 (.node 2 (.node 1 (.leaf 107127599300000000000000000000)
 (.leaf 106291602300000000000000000000))
 (.node 1 (.leaf 111883324000000000000000000000)
 (.leaf 10210755888141101077485712000000000000000000000000000000)))))))
 (.node 32 (.node 16 (.node 8 (.node 4 (.node 2 (.node 1 (.leaf 1024315972)
 (.leaf 1031073046162000000000000000000000000000000))
 (.node 1 (.leaf 111023683000000000000000000000)
 (.leaf 1048672922)))
 (.node 2 (.node 1 (.leaf 711104851209000000000000000000000000000000)
 (.leaf 801091332099000000000000000000000000000000))
 (.node 1 (.leaf 621092602322000000000000000000000000000000)
 (.leaf 561069637672000000000000000000000000000000))))
 (.node 4 (.node 2 (.node 1 (.leaf 6910753414320751075434908000000000000000000000000000000)
 (.leaf 1050025157))
 (.node 1 (.leaf 761086922694000000000000000000001031221216)
 (.leaf 1016394605)))
 (.node 2 (.node 1 (.leaf 801083408072000000000000000000001035795705)
 (.leaf 1101074292905000000000000000000001043024080))
 (.node 1 (.leaf 108028070200000000000000000000)
 (.leaf 1017197095)))))
 (.node 8 (.node 4 (.node 2 (.node 1 (.leaf 111093235100000000000000000000)
 (.leaf 1000239313))
 (.node 1 (.leaf 110092972200000000000000000000)
 (.leaf 461100938148000000000000000000000000000000)))
 (.node 2 (.node 1 (.leaf 1020105603)
 (.leaf 681060270086000000000000000000000000000000))
 (.node 1 (.leaf 1041837049)
 (.leaf 771100382645000000000000000000000000000000))))
 (.node 4 (.node 2 (.node 1 (.leaf 931085133535000000000000000000001044296935)
 (.leaf 110109833300000000000000000000))
 (.node 1 (.leaf 112035326900000000000000000000)
 (.leaf 112027112600000000000000000000)))
 (.node 2 (.node 1 (.leaf 111990640500000000000000000000)
 (.leaf 112040345600000000000000000000))
 (.node 1 (.leaf 109797022100000000000000000000)
 (.leaf 107277780500000000000000000000))))))
 (.node 16 (.node 8 (.node 4 (.node 2 (.node 1 (.leaf 108578501300000000000000000000)
 (.leaf 107381103000000000000000000000))
 (.node 1 (.leaf 651081299955000000000000000000000000000000)
 (.leaf 109478338900000000000000000000)))
 (.node 2 (.node 1 (.leaf 109309193100000000000000000000)
 (.leaf 701099722854000000000000000000000000000000))
 (.node 1 (.leaf 110352515700000000000000000000)
 (.leaf 111389054100000000000000000000))))
 (.node 4 (.node 2 (.node 1 (.leaf 701108814157000000000000000000000000000000)
 (.leaf 11086287886000000000010862878860000000000))
 (.node 1 (.leaf 110834488400000000000000000000)
 (.leaf 11092966085000000000010929660850000000000)))
 (.node 2 (.node 1 (.leaf 111584724900000000000000000000)
 (.leaf 111558184100000000000000000000))
 (.node 1 (.leaf 108688203300000000000000000000)
 (.leaf 110657378700000000000000000000)))))
 (.node 8 (.node 4 (.node 2 (.node 1 (.leaf 110836533200000000000000000000)
 (.leaf 109779322100000000000000000000))
 (.node 1 (.leaf 108782547900000000000000000000)
 (.leaf 109744845000000000000000000000)))
 (.node 2 (.node 1 (.leaf 109409793500000000000000000000)
 (.leaf 110327811300000000000000000000))
 (.node 1 (.leaf 11098814270000000000010988142700000000000)
 (.leaf 109663087500000000000000000000))))
 (.node 4 (.node 2 (.node 1 (.leaf 11104621901104901697211046219010000000000)
 (.leaf 110056817300000000000000000000))
 (.node 1 (.leaf 108026535100000000000000000000)
 (.leaf 11117044232000000000011170442320000000000)))
 (.node 2 (.node 1 (.leaf 106675981800000000000000000000)
 (.leaf 109115285200000000000000000000))
 (.node 1 (.leaf 109793173800000000000000000000)
 (.leaf 107515656300000000000000000000))))))))
 (.node 64 (.node 32 (.node 16 (.node 8 (.node 4 (.node 2 (.node 1 (.leaf 11092534617000000000010925346170000000000)
 (.leaf 110907773400000000000000000000))
 (.node 1 (.leaf 106080258100000000000000000000)
 (.leaf 108871221800000000000000000000)))
 (.node 2 (.node 1 (.leaf 110723061500000000000000000000)
 (.leaf 109535108800000000000000000000))
 (.node 1 (.leaf 11110854994000000000011108549940000000000)
 (.leaf 108955355300000000000000000000))))
 (.node 4 (.node 2 (.node 1 (.leaf 411092324148000000000000000000000000000000)
 (.leaf 411100578565000000000000000000000000000000))
 (.node 1 (.leaf 109150244700000000000000000000)
 (.leaf 111104352600000000000000000000)))
 (.node 2 (.node 1 (.leaf 771101529883000000000000000000000000000000)
 (.leaf 671084987733000000000000000000000000000000))
 (.node 1 (.leaf 108017446000000000000000000000)
 (.leaf 11109879605000000000011098796050000000000)))))
 (.node 8 (.node 4 (.node 2 (.node 1 (.leaf 107748884700000000000000000000)
 (.leaf 108480386000000000000000000000))
 (.node 1 (.leaf 641083310006000000000000000000000000000000)
 (.leaf 811108632984000000000000000000000000000000)))
 (.node 2 (.node 1 (.leaf 109256786300000000000000000000)
 (.leaf 781103034537000000000000000000000000000000))
 (.node 1 (.leaf 105194885800000000000000000000)
 (.leaf 811102564781000000000000000000000000000000))))
 (.node 4 (.node 2 (.node 1 (.leaf 711098913827000000000000000000000000000000)
 (.leaf 107407032200000000000000000000))
 (.node 1 (.leaf 11109255891000000000011092558910000000000)
 (.leaf 110976515400000000000000000000)))
 (.node 2 (.node 1 (.leaf 109891110800000000000000000000)
 (.leaf 107073845100000000000000000000))
 (.node 1 (.leaf 109414889600000000000000000000)
 (.leaf 1051059234850000000000000000000000000000000))))))
 (.node 16 (.node 8 (.node 4 (.node 2 (.node 1 (.leaf 107443199700000000000000000000)
 (.leaf 831069707053000000000000000000000000000000))
 (.node 1 (.leaf 1016669183)
 (.leaf 761038585869000000000000000000000000000000)))
 (.node 2 (.node 1 (.leaf 421035356732106673557500000000000000000000)
 (.leaf 1091071698107000000000000000000000000000000))
 (.node 1 (.leaf 291057211816000000000000000000000000000000)
 (.leaf 6910514635250751088866848000000000000000000000000000000))))
 (.node 4 (.node 2 (.node 1 (.leaf 109371163900000000000000000000)
 (.leaf 108278415600000000000000000000))
 (.node 1 (.leaf 1029059689)
 (.leaf 11103103242000000000011031032420000000000)))
 (.node 2 (.node 1 (.leaf 110989498820301099129845000000000010989498821072644491)
 (.leaf 811057914332000000000000000000000000000000))
 (.node 1 (.leaf 109025832200000000000000000000)
 (.leaf 107459259700000000000000000000)))))
 (.node 8 (.node 4 (.node 2 (.node 1 (.leaf 1061099301666000000000000000000000000000000)
 (.leaf 1066278379))
 (.node 1 (.leaf 11084057179106407933910840571790000000000)
 (.leaf 108483179400000000000000000000)))
 (.node 2 (.node 1 (.leaf 109812467600000000000000000000)
 (.leaf 1075792079))
 (.node 1 (.leaf 1055493126)
 (.leaf 651064192443000000000000000000000000000000))))
 (.node 4 (.node 2 (.node 1 (.leaf 731072709088000000000000000000000000000000)
 (.leaf 1041490760))
 (.node 1 (.leaf 112013031500000000000000000000)
 (.leaf 411084571243000000000000000000000000000000)))
 (.node 2 (.node 1 (.leaf 771087775993000000000000000000000000000000)
 (.leaf 571054916408000000000000000000000000000000))
 (.node 1 (.leaf 1052917242)
 (.leaf 1051738484)))))))
 (.node 32 (.node 16 (.node 8 (.node 4 (.node 2 (.node 1 (.leaf 341062927297000000000000000000000000000000)
 (.leaf 111504869300000000000000000000))
 (.node 1 (.leaf 691045974023000000000000000000000000000000)
 (.leaf 661059326738000000000000000000001024701992)))
 (.node 2 (.node 1 (.leaf 1033269284)
 (.leaf 7110352511780861055145132000000000000000000000000000000))
 (.node 1 (.leaf 107101342900000000001049321454)
 (.leaf 1051897982))))
 (.node 4 (.node 2 (.node 1 (.leaf 681055339001000000000000000000001044174087)
 (.leaf 1047692896))
 (.node 1 (.leaf 641068907704000000000000000000001030137918)
 (.leaf 681077741653000000000000000000000000000000)))
 (.node 2 (.node 1 (.leaf 108942587900000000000000000000)
 (.leaf 611026537020000000000000000000001056647716))
 (.node 1 (.leaf 741067198810000000000000000000000000000000)
 (.leaf 701082593968000000000000000000000000000000)))))
 (.node 8 (.node 4 (.node 2 (.node 1 (.leaf 641068023607000000000000000000000000000000)
 (.leaf 1050333687))
 (.node 1 (.leaf 1201083350616000000000000000000000000000000)
 (.leaf 431066962779000000000000000000001066482102)))
 (.node 2 (.node 1 (.leaf 1062094609)
 (.leaf 631062062615000000000000000000000000000000))
 (.node 1 (.leaf 1048033830)
 (.leaf 1130998056724000000000000000000000000000000))))
 (.node 4 (.node 2 (.node 1 (.leaf 831095766852000000000000000000000000000000)
 (.leaf 1049927991))
 (.node 1 (.leaf 103452957800000000000000000000)
 (.leaf 4010526995400491075846602000000000000000000001072124600)))
 (.node 2 (.node 1 (.leaf 5410686674940671078830218000000000000000000000000000000)
 (.leaf 1033194815))
 (.node 1 (.leaf 91075907860000000000000000000000000000000)
 (.leaf 1024145015))))))
 (.node 16 (.node 8 (.node 4 (.node 2 (.node 1 (.leaf 1043240896)
 (.leaf 401077547251000000000000000000001061260776))
 (.node 1 (.leaf 1050009200)
 (.leaf 1033495607)))
 (.node 2 (.node 1 (.leaf 1048528281)
 (.leaf 421060162675000000000000000000000000000000))
 (.node 1 (.leaf 261057002382000000000000000000001067301079)
 (.leaf 1011049780330000000000000000000000000000000))))
 (.node 4 (.node 2 (.node 1 (.leaf 1040319432)
 (.leaf 1131054525971000000000000000000000000000000))
 (.node 1 (.leaf 1141067131387000000000000000000000000000000)
 (.leaf 108254667500000000000000000000)))
 (.node 2 (.node 1 (.leaf 521042594790000000000000000000000000000000)
 (.leaf 110800716400000000000000000000))
 (.node 1 (.leaf 691090797664000000000000000000000000000000)
 (.leaf 1026530703)))))
 (.node 8 (.node 4 (.node 2 (.node 1 (.leaf 641033032096000000000000000000000000000000)
 (.leaf 961053108067000000000000000000001038480843))
 (.node 1 (.leaf 1091050439805000000000000000000000000000000)
 (.leaf 1065679879)))
 (.node 2 (.node 1 (.leaf 1042536056)
 (.leaf 108410337000000000000000000000))
 (.node 1 (.leaf 1068186782)
 (.leaf 1001072074035000000000000000000000000000000))))
 (.node 4 (.node 2 (.node 1 (.leaf 1051044920979000000000000000000000000000000)
 (.leaf 1111052338317000000000000000000000000000000))
 (.node 1 (.leaf 1121074467953000000000000000000000000000000)
 (.leaf 571099266010000000000000000000000000000000)))
 (.node 2 (.node 1 (.leaf 1051108723)
 (.leaf 11100382561000000000011003825611006708066))
 (.node 1 (.leaf 110785990901111079482891000000000000000000000000000000)
 (.leaf 1025797161))))))))))))))
 (.node 1024 (.node 512 (.node 256 (.node 128 (.node 64 (.node 32 (.node 16 (.node 8 (.node 4 (.node 2 (.node 1 (.leaf 103257934100000000000000000000)
 (.leaf 831054560253000000000000000000000000000000))
 (.node 1 (.leaf 881094593494000000000000000000000000000000)
 (.leaf 107247581500000000000000000000)))
 (.node 2 (.node 1 (.leaf 881029696512000000000000000000000000000000)
 (.leaf 11063721724000000000010637217240000000000))
 (.node 1 (.leaf 861086361812000000000000000000000000000000)
 (.leaf 801093018639000000000000000000000000000000))))
 (.node 4 (.node 2 (.node 1 (.leaf 1021031816696000000000000000000000000000000)
 (.leaf 108340789100000000000000000000))
 (.node 1 (.leaf 108031463400000000000000000000)
 (.leaf 108532206700000000000000000000)))
 (.node 2 (.node 1 (.leaf 108402204200000000000000000000)
 (.leaf 111602448500000000000000000000))
 (.node 1 (.leaf 111837776400000000000000000000)
 (.leaf 691071821939000000000000000000000000000000)))))
 (.node 8 (.node 4 (.node 2 (.node 1 (.leaf 801093505145000000000000000000000000000000)
 (.leaf 108154872400000000000000000000))
 (.node 1 (.leaf 110299373900000000000000000000)
 (.leaf 109960264400000000000000000000)))
 (.node 2 (.node 1 (.leaf 111846389200000000000000000000)
 (.leaf 10610756374391101083771814000000000000000000000000000000))
 (.node 1 (.leaf 861074176554000000000000000000000000000000)
 (.leaf 111040402600000000000000000000))))
 (.node 4 (.node 2 (.node 1 (.leaf 6609705757890801075510192000000000000000000000000000000)
 (.leaf 561085523629000000000000000000000000000000))
 (.node 1 (.leaf 871083458439000000000000000000000000000000)
 (.leaf 6910163874280751088112854000000000000000000000000000000)))
 (.node 2 (.node 1 (.leaf 7610900960080851090532300000000000000000000000000000000)
 (.leaf 801079862406000000000000000000000000000000))
 (.node 1 (.leaf 1049238967)
 (.leaf 1101052900549000000000000000000000000000000))))))
 (.node 16 (.node 8 (.node 4 (.node 2 (.node 1 (.leaf 108219473100000000000000000000)
 (.leaf 6010772968330821077882726000000000000000000000000000000))
 (.node 1 (.leaf 1048777653)
 (.leaf 109409395000000000000000000000)))
 (.node 2 (.node 1 (.leaf 112034162900000000000000000000)
 (.leaf 112019541900000000000000000000))
 (.node 1 (.leaf 109492788300000000000000000000)
 (.leaf 107859526300000000000000000000))))
 (.node 4 (.node 2 (.node 1 (.leaf 107917814500000000000000000000)
 (.leaf 108951326700000000000000000000))
 (.node 1 (.leaf 104866082600000000000000000000)
 (.leaf 106770026500000000000000000000)))
 (.node 2 (.node 1 (.leaf 641084094460000000000000000000000000000000)
 (.leaf 106558121800000000000000000000))
 (.node 1 (.leaf 701098383715000000000000000000000000000000)
 (.leaf 108365223000000000000000000000)))))
 (.node 8 (.node 4 (.node 2 (.node 1 (.leaf 111188490300000000000000000000)
 (.leaf 111553363300000000000000000000))
 (.node 1 (.leaf 111561691600000000000000000000)
 (.leaf 11062870322000000000010628703220000000000)))
 (.node 2 (.node 1 (.leaf 111552975300000000000000000000)
 (.leaf 109709854000000000000000000000))
 (.node 1 (.leaf 108235252000000000000000000000)
 (.leaf 110135140700000000000000000000))))
 (.node 4 (.node 2 (.node 1 (.leaf 107952954400000000000000000000)
 (.leaf 11076814196000000000010768141960000000000))
 (.node 1 (.leaf 108280070300000000000000000000)
 (.leaf 110442399700000000000000000000)))
 (.node 2 (.node 1 (.leaf 701078398940000000000000000000000000000000)
 (.leaf 109071441100000000000000000000))
 (.node 1 (.leaf 110966858100000000000000000000)
 (.leaf 11106245032106258974011062450320000000000)))))))
 (.node 32 (.node 16 (.node 8 (.node 4 (.node 2 (.node 1 (.leaf 110072750400000000000000000000)
 (.leaf 11119245321000000000011192453210000000000))
 (.node 1 (.leaf 108392058200000000000000000000)
 (.leaf 107892858400000000000000000000)))
 (.node 2 (.node 1 (.leaf 106183771800000000000000000000)
 (.leaf 110272226300000000000000000000))
 (.node 1 (.leaf 108394715300000000000000000000)
 (.leaf 11071372157000000000010713721570000000000))))
 (.node 4 (.node 2 (.node 1 (.leaf 104051293700000000000000000000)
 (.leaf 109460271900000000000000000000))
 (.node 1 (.leaf 110261855800000000000000000000)
 (.leaf 109548782200000000000000000000)))
 (.node 2 (.node 1 (.leaf 11116838338000000000011168383380000000000)
 (.leaf 111735398700000000000000000000))
 (.node 1 (.leaf 411113694845000000000000000000000000000000)
 (.leaf 11093395471000000000010933954710000000000)))))
 (.node 8 (.node 4 (.node 2 (.node 1 (.leaf 411101455940000000000000000000000000000000)
 (.leaf 541056462969000000000000000000000000000000))
 (.node 1 (.leaf 551058500801000000000000000000000000000000)
 (.leaf 771087498888000000000000000000000000000000)))
 (.node 2 (.node 1 (.leaf 671079489854000000000000000000000000000000)
 (.leaf 108858328500000000000000000000))
 (.node 1 (.leaf 105978358300000000000000000000)
 (.leaf 641088295815000000000000000000000000000000))))
 (.node 4 (.node 2 (.node 1 (.leaf 11116370239000000000011163702390000000000)
 (.leaf 111065453000000000000000000000))
 (.node 1 (.leaf 781099179049000000000000000000000000000000)
 (.leaf 781064876793000000000000000000000000000000)))
 (.node 2 (.node 1 (.leaf 811083728831000000000000000000000000000000)
 (.leaf 711097326557000000000000000000000000000000))
 (.node 1 (.leaf 108047678600000000000000000000)
 (.leaf 110767356000000000000000000000))))))
 (.node 16 (.node 8 (.node 4 (.node 2 (.node 1 (.leaf 11118726355000000000011187263550000000000)
 (.leaf 105496560300000000000000000000))
 (.node 1 (.leaf 107845014000000000000000000000)
 (.leaf 1051077672590000000000000000000000000000000)))
 (.node 2 (.node 1 (.leaf 109022101400000000000000000000)
 (.leaf 108430096300000000000000000000))
 (.node 1 (.leaf 681086652618000000000000000000000000000000)
 (.leaf 109227743900000000000000000000))))
 (.node 4 (.node 2 (.node 1 (.leaf 1091060745343000000000000000000000000000000)
 (.leaf 1050969600))
 (.node 1 (.leaf 108626052100000000000000000000)
 (.leaf 651077568351000000000000000000000000000000)))
 (.node 2 (.node 1 (.leaf 108164246700000000000000000000)
 (.leaf 105491678100000000000000000000))
 (.node 1 (.leaf 11067071125000000000010670711250000000000)
 (.leaf 11106075993000000000011060759930000000000)))))
 (.node 8 (.node 4 (.node 2 (.node 1 (.leaf 811078475928000000000000000000000000000000)
 (.leaf 551095313192000000000000000000000000000000))
 (.node 1 (.leaf 1061042514912000000000000000000000000000000)
 (.leaf 107279256900000000000000000000)))
 (.node 2 (.node 1 (.leaf 107772045700000000000000000000)
 (.leaf 110503657500000000000000000000))
 (.node 1 (.leaf 1010946710)
 (.leaf 680999783696000000000000000000000000000000))))
 (.node 4 (.node 2 (.node 1 (.leaf 1061454305)
 (.leaf 108634640000000000000000000000))
 (.node 1 (.leaf 651048587737000000000000000000001038731941)
 (.leaf 107690147700000000000000000000)))
 (.node 2 (.node 1 (.leaf 311061546210000000000000000000000000000000)
 (.leaf 1068243586))
 (.node 1 (.leaf 571047199628000000000000000000001063502180)
 (.leaf 108944898900000000000000000000))))))))
 (.node 64 (.node 32 (.node 16 (.node 8 (.node 4 (.node 2 (.node 1 (.leaf 1056526786)
 (.leaf 341040564995000000000000000000001059677538))
 (.node 1 (.leaf 111780526800000000000000000000)
 (.leaf 661068853273000000000000000000001059210993)))
 (.node 2 (.node 1 (.leaf 1054110216)
 (.leaf 1055139885))
 (.node 1 (.leaf 831058539033000000000000000000000000000000)
 (.leaf 43107561976908010756757190861076470017000000000000000000000000000000))))
 (.node 4 (.node 2 (.node 1 (.leaf 521074240378000000000000000000000000000000)
 (.leaf 1040495063))
 (.node 1 (.leaf 1035722004)
 (.leaf 541081371729000000000000000000000000000000)))
 (.node 2 (.node 1 (.leaf 1026916896)
 (.leaf 1013685908))
 (.node 1 (.leaf 641044962199000000000000000000001060001610)
 (.leaf 1055551358)))))
 (.node 8 (.node 4 (.node 2 (.node 1 (.leaf 1051246454)
 (.leaf 109540089500000000000000000000))
 (.node 1 (.leaf 4810471595570641051415899000000000000000000000000000000)
 (.leaf 921068494447000000000000000000001044898872)))
 (.node 2 (.node 1 (.leaf 741071409449000000000000000000001055457159)
 (.leaf 431059025296000000000000000000001058599224))
 (.node 1 (.leaf 801075717178000000000000000000001051426284)
 (.leaf 1055705217))))
 (.node 4 (.node 2 (.node 1 (.leaf 108462235200000000000000000000)
 (.leaf 1058982149))
 (.node 1 (.leaf 1023434165)
 (.leaf 391016690373000000000000000000001032538839)))
 (.node 2 (.node 1 (.leaf 441068013074000000000000000000001020457032)
 (.leaf 1037716363))
 (.node 1 (.leaf 701110195872000000000000000000000000000000)
 (.leaf 6210715201401011074354407000000000000000000000000000000))))))
 (.node 16 (.node 8 (.node 4 (.node 2 (.node 1 (.leaf 982307311)
 (.leaf 891071222946000000000000000000001034336726))
 (.node 1 (.leaf 1044838758)
 (.leaf 8210693539371141077600058000000000000000000000000000000)))
 (.node 2 (.node 1 (.leaf 521078531629000000000000000000000000000000)
 (.leaf 521012337061000000000000000000000000000000))
 (.node 1 (.leaf 961073999344000000000000000000001023950056)
 (.leaf 1091048760219000000000000000000001020837451))))
 (.node 4 (.node 2 (.node 1 (.leaf 1064210075)
 (.leaf 1062536068))
 (.node 1 (.leaf 1001070466793000000000000000000001052621115)
 (.leaf 761069809277000000000000000000000000000000)))
 (.node 2 (.node 1 (.leaf 701077554923000000000000000000000000000000)
 (.leaf 601055675016000000000000000000000000000000))
 (.node 1 (.leaf 781078187731105049558200000000001023867737)
 (.leaf 11210834204821131085762661000000000000000000001048815449)))))
 (.node 8 (.node 4 (.node 2 (.node 1 (.leaf 721051319109000000000000000000000000000000)
 (.leaf 571052292526000000000000000000001007919177))
 (.node 1 (.leaf 1020254704)
 (.leaf 711083862107000000000000000000000000000000)))
 (.node 2 (.node 1 (.leaf 831077818726000000000000000000000000000000)
 (.leaf 651089620865000000000000000000000000000000))
 (.node 1 (.leaf 861111289558000000000000000000000000000000)
 (.leaf 721020126090000000000000000000000000000000))))
 (.node 4 (.node 2 (.node 1 (.leaf 801071694024000000000000000000000000000000)
 (.leaf 106234809800000000000000000000))
 (.node 1 (.leaf 1021044066991000000000000000000000000000000)
 (.leaf 108689199500000000000000000000)))
 (.node 2 (.node 1 (.leaf 108769067400000000000000000000)
 (.leaf 11107622039000000000011076220390000000000))
 (.node 1 (.leaf 108580457900000000000000000000)
 (.leaf 111741029600000000000000000000)))))))
 (.node 32 (.node 16 (.node 8 (.node 4 (.node 2 (.node 1 (.leaf 111383923900000000000000000000)
 (.leaf 691081640702000000000000000000000000000000))
 (.node 1 (.leaf 109369171600000000000000000000)
 (.leaf 1061085476761000000000000000000000000000000)))
 (.node 2 (.node 1 (.leaf 861021825371000000000000000000000000000000)
 (.leaf 111328800300000000000000000000))
 (.node 1 (.leaf 1031040712760000000000000000000000000000000)
 (.leaf 108588467000000000000000000000))))
 (.node 4 (.node 2 (.node 1 (.leaf 661073133497000000000000000000000000000000)
 (.leaf 561076404249000000000000000000001065840444))
 (.node 1 (.leaf 871076462218000000000000000000000000000000)
 (.leaf 7510913633370821092789563000000000000000000000000000000)))
 (.node 2 (.node 1 (.leaf 851076722494000000000000000000000000000000)
 (.leaf 1026250954))
 (.node 1 (.leaf 8010420953030991078397604000000000000000000000000000000)
 (.leaf 1051268855)))))
 (.node 8 (.node 4 (.node 2 (.node 1 (.leaf 1033134206)
 (.leaf 1037065499))
 (.node 1 (.leaf 791093747723000000000000000000000000000000)
 (.leaf 821090233214000000000000000000000000000000)))
 (.node 2 (.node 1 (.leaf 731091230241000000000000000000000000000000)
 (.leaf 112040345600000000000000000000))
 (.node 1 (.leaf 112033168100000000000000000000)
 (.leaf 109495514600000000000000000000))))
 (.node 4 (.node 2 (.node 1 (.leaf 109014341900000000000000000000)
 (.leaf 109757176200000000000000000000))
 (.node 1 (.leaf 109989220800000000000000000000)
 (.leaf 641070450643000000000000000000000000000000)))
 (.node 2 (.node 1 (.leaf 107713933600000000000000000000)
 (.leaf 701101343136000000000000000000000000000000))
 (.node 1 (.leaf 108321203800000000000000000000)
 (.leaf 111787000500000000000000000000))))))
 (.node 16 (.node 8 (.node 4 (.node 2 (.node 1 (.leaf 111146036100000000000000000000)
 (.leaf 111765131100000000000000000000))
 (.node 1 (.leaf 110306011400000000000000000000)
 (.leaf 108444612800000000000000000000)))
 (.node 2 (.node 1 (.leaf 109419220200000000000000000000)
 (.leaf 109436836200000000000000000000))
 (.node 1 (.leaf 671086823821000000000000000000000000000000)
 (.leaf 110120738500000000000000000000))))
 (.node 4 (.node 2 (.node 1 (.leaf 109245012900000000000000000000)
 (.leaf 11095921373108804972710959213730000000000))
 (.node 1 (.leaf 911070529099000000000000000000000000000000)
 (.leaf 11118574090000000000011185740900000000000)))
 (.node 2 (.node 1 (.leaf 108483234000000000000000000000)
 (.leaf 108635443200000000000000000000))
 (.node 1 (.leaf 1037563803)
 (.leaf 109157750400000000000000000000)))))
 (.node 8 (.node 4 (.node 2 (.node 1 (.leaf 108741942800000000000000000000)
 (.leaf 11117831579000000000011178315790000000000))
 (.node 1 (.leaf 111382707600000000000000000000)
 (.leaf 11074841366000000000010748413660000000000)))
 (.node 2 (.node 1 (.leaf 11110739392000000000011107393920000000000)
 (.leaf 541092879428000000000000000000000000000000))
 (.node 1 (.leaf 371082019953000000000000000000000000000000)
 (.leaf 671088540285000000000000000000000000000000))))
 (.node 4 (.node 2 (.node 1 (.leaf 591082217394000000000000000000000000000000)
 (.leaf 110931738600000000000000000000))
 (.node 1 (.leaf 781112786545000000000000000000000000000000)
 (.leaf 108374656000000000000000000000)))
 (.node 2 (.node 1 (.leaf 811091996534000000000000000000000000000000)
 (.leaf 109531648500000000000000000000))
 (.node 1 (.leaf 107632929000000000000000000000)
 (.leaf 1051100319426000000000000000000000000000000)))))))))
 (.node 128 (.node 64 (.node 32 (.node 16 (.node 8 (.node 4 (.node 2 (.node 1 (.leaf 1050528742)
 (.leaf 1101052912583109074095000000000000000000000))
 (.node 1 (.leaf 102880911100000000000000000000)
 (.leaf 681088686496000000000000000000000000000000)))
 (.node 2 (.node 1 (.leaf 11027911296000000000010279112960000000000)
 (.leaf 107228044500000000000000000000))
 (.node 1 (.leaf 110345589900000000000000000000)
 (.leaf 1091088016337000000000000000000000000000000))))
 (.node 4 (.node 2 (.node 1 (.leaf 1050225777)
 (.leaf 11088067899000000000010880678990000000000))
 (.node 1 (.leaf 651075036869000000000000000000001065445277)
 (.leaf 107439479300000000000000000000)))
 (.node 2 (.node 1 (.leaf 1056821418)
 (.leaf 106283681800000000000000000000))
 (.node 1 (.leaf 551079761532000000000000000000000000000000)
 (.leaf 110831896150241084205910000000000010831896150000000000)))))
 (.node 8 (.node 4 (.node 2 (.node 1 (.leaf 104934436300000000000000000000)
 (.leaf 1061023532645000000000000000000000000000000))
 (.node 1 (.leaf 111916972800000000000000000000)
 (.leaf 108448786200000000000000000000)))
 (.node 2 (.node 1 (.leaf 110586998300000000000000000000)
 (.leaf 11082943074109075763310829430740999166421))
 (.node 1 (.leaf 110121944400000000000000000000)
 (.leaf 106479106200000000000000000000))))
 (.node 4 (.node 2 (.node 1 (.leaf 681061994865000000000000000000000000000000)
 (.leaf 1026972388))
 (.node 1 (.leaf 109085288600000000000000000000)
 (.leaf 661063461698000000000000000000000000000000)))
 (.node 2 (.node 1 (.leaf 751089053526000000000000000000000000000000)
 (.leaf 311063360497000000000000000000000000000000))
 (.node 1 (.leaf 741049189436000000000000000000000000000000)
 (.leaf 108773200900000000000000000000))))))
 (.node 16 (.node 8 (.node 4 (.node 2 (.node 1 (.leaf 110289003500000000000000000000)
 (.leaf 701070329688000000000000000000001043573722))
 (.node 1 (.leaf 1029929361)
 (.leaf 1047787172)))
 (.node 2 (.node 1 (.leaf 831076860708000000000000000000001062266088)
 (.leaf 431089050277000000000000000000001057579810))
 (.node 1 (.leaf 1049348755)
 (.leaf 1034081820))))
 (.node 4 (.node 2 (.node 1 (.leaf 691057483420000000000000000000000000000000)
 (.leaf 591088916305000000000000000000000000000000))
 (.node 1 (.leaf 481050008862000000000000000000000000000000)
 (.leaf 1046160313)))
 (.node 2 (.node 1 (.leaf 741085594525000000000000000000000000000000)
 (.leaf 1038070336))
 (.node 1 (.leaf 4410007348820661086186213000000000000000000000000000000)
 (.leaf 108779987300000000000000000000)))))
 (.node 8 (.node 4 (.node 2 (.node 1 (.leaf 651068654779000000000000000000000000000000)
 (.leaf 391081973306000000000000000000000000000000))
 (.node 1 (.leaf 1051420759)
 (.leaf 108408220900000000000000000000)))
 (.node 2 (.node 1 (.leaf 1050312630)
 (.leaf 103126983200000000000000000000))
 (.node 1 (.leaf 891049693170000000000000000000000000000000)
 (.leaf 781049392031000000000000000000001045004470))))
 (.node 4 (.node 2 (.node 1 (.leaf 1011051969398000000000000000000000000000000)
 (.leaf 521071764896000000000000000000000000000000))
 (.node 1 (.leaf 1040967106)
 (.leaf 1028035043)))
 (.node 2 (.node 1 (.leaf 1056219973)
 (.leaf 1041079044))
 (.node 1 (.leaf 1066341863)
 (.leaf 105193003400000000000000000000)))))))
 (.node 32 (.node 16 (.node 8 (.node 4 (.node 2 (.node 1 (.leaf 7910679078320961071614685000000000000000000000000000000)
 (.leaf 521076773985000000000000000000000000000000))
 (.node 1 (.leaf 1091058841635000000000000000000000000000000)
 (.leaf 1035286568)))
 (.node 2 (.node 1 (.leaf 1091038380349000000000000000000000000000000)
 (.leaf 751065554454000000000000000000000000000000))
 (.node 1 (.leaf 641058243023000000000000000000000000000000)
 (.leaf 1061048805327000000000000000000000000000000))))
 (.node 4 (.node 2 (.node 1 (.leaf 721095188715000000000000000000000000000000)
 (.leaf 631090296531000000000000000000000000000000))
 (.node 1 (.leaf 771090697430000000000000000000000000000000)
 (.leaf 811091933590000000000000000000000000000000)))
 (.node 2 (.node 1 (.leaf 11069423927000000000010694239270000000000)
 (.leaf 831043594190000000000000000000000000000000))
 (.node 1 (.leaf 1074738283)
 (.leaf 1039645770)))))
 (.node 8 (.node 4 (.node 2 (.node 1 (.leaf 821072970541000000000000000000000000000000)
 (.leaf 861110703113000000000000000000000000000000))
 (.node 1 (.leaf 1033035128)
 (.leaf 1047454500)))
 (.node 2 (.node 1 (.leaf 791064772263000000000000000000000000000000)
 (.leaf 111194944300000000000000000000))
 (.node 1 (.leaf 108275666300000000000000000000)
 (.leaf 105328932400000000000000000000))))
 (.node 4 (.node 2 (.node 1 (.leaf 111386592500000000000000000000)
 (.leaf 691085634127000000000000000000000000000000))
 (.node 1 (.leaf 106378691200000000000000000000)
 (.leaf 1043979794)))
 (.node 2 (.node 1 (.leaf 108517568500000000000000000000)
 (.leaf 111562918500000000000000000000))
 (.node 1 (.leaf 6609885672250781074931833000000000000000000000000000000)
 (.leaf 741074297286000000000000000000001055773710))))))
 (.node 16 (.node 8 (.node 4 (.node 2 (.node 1 (.leaf 8210847523960991088196631000000000000000000000000000000)
 (.leaf 8509986165910991077270849000000000000000000000000000000))
 (.node 1 (.leaf 11081597798000000000000000000000000000000)
 (.leaf 1051400864)))
 (.node 2 (.node 1 (.leaf 109694324600000000000000000000)
 (.leaf 1041257574))
 (.node 1 (.leaf 891082313931000000000000000000000000000000)
 (.leaf 731098447395000000000000000000001069611539))))
 (.node 4 (.node 2 (.node 1 (.leaf 631061941221000000000000000000000000000000)
 (.leaf 11120397859000000000011203978590000000000))
 (.node 1 (.leaf 112040345600000000000000000000)
 (.leaf 11120367410000000000011203674100000000000)))
 (.node 2 (.node 1 (.leaf 109079126100000000000000000000)
 (.leaf 107859136200000000000000000000))
 (.node 1 (.leaf 109172022600000000000000000000)
 (.leaf 110840790400000000000000000000)))))
 (.node 8 (.node 4 (.node 2 (.node 1 (.leaf 109140700600000000000000000000)
 (.leaf 105923998400000000000000000000))
 (.node 1 (.leaf 701050710898000000000000000000000000000000)
 (.leaf 111306774900000000000000000000)))
 (.node 2 (.node 1 (.leaf 111534347400000000000000000000)
 (.leaf 108488495700000000000000000000))
 (.node 1 (.leaf 110369156600000000000000000000)
 (.leaf 110062144100000000000000000000))))
 (.node 4 (.node 2 (.node 1 (.leaf 109818926900000000000000000000)
 (.leaf 109963127000000000000000000000))
 (.node 1 (.leaf 110190945900000000000000000000)
 (.leaf 671092063670000000000000000000000000000000)))
 (.node 2 (.node 1 (.leaf 108807057300000000000000000000)
 (.leaf 11104339346000000000011043393460000000000))
 (.node 1 (.leaf 911067232156000000000000000000000000000000)
 (.leaf 11097472393000000000010974723930000000000))))))))
 (.node 64 (.node 32 (.node 16 (.node 8 (.node 4 (.node 2 (.node 1 (.leaf 108987693400000000000000000000)
 (.leaf 110476331600000000000000000000))
 (.node 1 (.leaf 108852810900000000000000000000)
 (.leaf 108032704900000000000000000000)))
 (.node 2 (.node 1 (.leaf 11085336361000000000010853363610000000000)
 (.leaf 11110958805000000000011109588050000000000))
 (.node 1 (.leaf 371087110349000000000000000000000000000000)
 (.leaf 671084954150000000000000000000000000000000))))
 (.node 4 (.node 2 (.node 1 (.leaf 591058621150000000000000000000000000000000)
 (.leaf 110016567700000000000000000000))
 (.node 1 (.leaf 107416393900000000000000000000)
 (.leaf 11120154291000000000011201542910000000000)))
 (.node 2 (.node 1 (.leaf 811106029575000000000000000000000000000000)
 (.leaf 781081134320000000000000000000000000000000))
 (.node 1 (.leaf 110880198500000000000000000000)
 (.leaf 1015931017)))))
 (.node 8 (.node 4 (.node 2 (.node 1 (.leaf 8010924001371051098198681000000000000000000000000000000)
 (.leaf 101818862300000000000000000000))
 (.node 1 (.leaf 1027362946)
 (.leaf 110276095500000000000000000000)))
 (.node 2 (.node 1 (.leaf 1091092063480000000000000000000000000000000)
 (.leaf 681085092969000000000000000000001043468443))
 (.node 1 (.leaf 11092378554000000000010923785540000000000)
 (.leaf 110071182800000000000000000000))))
 (.node 4 (.node 2 (.node 1 (.leaf 1035007234)
 (.leaf 1020752702))
 (.node 1 (.leaf 2410762260380301078663828000000000000000000000000000000)
 (.leaf 111978041800000000000000000000)))
 (.node 2 (.node 1 (.leaf 110430970200000000000000000000)
 (.leaf 110790540000000000000000000000))
 (.node 1 (.leaf 11079489483108313127710794894830000000000)
 (.leaf 110324209400000000000000000000))))))
 (.node 16 (.node 8 (.node 4 (.node 2 (.node 1 (.leaf 108654145600000000000000000000)
 (.leaf 1043929287))
 (.node 1 (.leaf 112005648200000000000000000000)
 (.leaf 1042890707)))
 (.node 2 (.node 1 (.leaf 108419434400000000000000000000)
 (.leaf 109864833500000000000000000000))
 (.node 1 (.leaf 1131065518841000000000000000000001043610322)
 (.leaf 531096397570000000000000000000000000000000))))
 (.node 4 (.node 2 (.node 1 (.leaf 431050977716000000000000000000001051356263)
 (.leaf 681052376191000000000000000000001051938057))
 (.node 1 (.leaf 691068511095000000000000000000000000000000)
 (.leaf 591055166380108082814300000000001034079152)))
 (.node 2 (.node 1 (.leaf 1091067930905000000000000000000000000000000)
 (.leaf 1021071281979000000000000000000001008235594))
 (.node 1 (.leaf 741090432886000000000000000000000000000000)
 (.leaf 1056610882)))))
 (.node 8 (.node 4 (.node 2 (.node 1 (.leaf 984233488)
 (.leaf 108485012400000000000000000000))
 (.node 1 (.leaf 611064241009000000000000000000000000000000)
 (.leaf 1066146026)))
 (.node 2 (.node 1 (.leaf 361051276613000000000000000000000000000000)
 (.leaf 771069181494000000000000000000000000000000))
 (.node 1 (.leaf 11065745152103683584110657451520000000000)
 (.leaf 411067699564000000000000000000001046766708))))
 (.node 4 (.node 2 (.node 1 (.leaf 781032810581000000000000000000000000000000)
 (.leaf 106229231400000000000000000000))
 (.node 1 (.leaf 701075653429000000000000000000000000000000)
 (.leaf 1038528235)))
 (.node 2 (.node 1 (.leaf 1161051269023000000000000000000001039953734)
 (.leaf 961067859326000000000000000000000000000000))
 (.node 1 (.leaf 1131058832420000000000000000000000000000000)
 (.leaf 1091073968347000000000000000000000000000000)))))))
 (.node 32 (.node 16 (.node 8 (.node 4 (.node 2 (.node 1 (.leaf 751068332379000000000000000000000000000000)
 (.leaf 641071409484000000000000000000000989927679))
 (.node 1 (.leaf 711084542924000000000000000000000000000000)
 (.leaf 1061071473605000000000000000000000000000000)))
 (.node 2 (.node 1 (.leaf 631069578039000000000000000000000000000000)
 (.leaf 1076017025))
 (.node 1 (.leaf 821051635624000000000000000000001046011879)
 (.leaf 111134370700000000000000000000))))
 (.node 4 (.node 2 (.node 1 (.leaf 103606441100000000000000000000)
 (.leaf 111563516100000000000000000000))
 (.node 1 (.leaf 1041084798317000000000000000000000000000000)
 (.leaf 1021020715283000000000000000000000000000000)))
 (.node 2 (.node 1 (.leaf 111697594900000000000000000000)
 (.leaf 781073382868000000000000000000000000000000))
 (.node 1 (.leaf 781084856782000000000000000000001050902188)
 (.leaf 781098006971000000000000000000000000000000)))))
 (.node 8 (.node 4 (.node 2 (.node 1 (.leaf 7310795664960741088853951000000000000000000000000000000)
 (.leaf 7310453171480991093515726000000000000000000000000000000))
 (.node 1 (.leaf 107935116000000000000000000000)
 (.leaf 991082599638000000000000000000000000000000)))
 (.node 2 (.node 1 (.leaf 761076104801000000000000000000000000000000)
 (.leaf 911050196941000000000000000000000000000000))
 (.node 1 (.leaf 811028812185000000000000000000000000000000)
 (.leaf 781053138384000000000000000000000000000000))))
 (.node 4 (.node 2 (.node 1 (.leaf 891085742600000000000000000000000000000000)
 (.leaf 771065190695107656584900000000000000000000))
 (.node 1 (.leaf 11120388287000000000011203882870000000000)
 (.leaf 105819082100000000000000000000)))
 (.node 2 (.node 1 (.leaf 108877989300000000000000000000)
 (.leaf 109347046700000000000000000000))
 (.node 1 (.leaf 111024133900000000000000000000)
 (.leaf 111113433300000000000000000000))))))
 (.node 16 (.node 8 (.node 4 (.node 2 (.node 1 (.leaf 108459223700000000000000000000)
 (.leaf 111915302900000000000000000000))
 (.node 1 (.leaf 108834783800000000000000000000)
 (.leaf 110608363000000000000000000000)))
 (.node 2 (.node 1 (.leaf 110690917400000000000000000000)
 (.leaf 109161103800000000000000000000))
 (.node 1 (.leaf 108841847000000000000000000000)
 (.leaf 671102412492000000000000000000000000000000))))
 (.node 4 (.node 2 (.node 1 (.leaf 11108208798000000000011082087980000000000)
 (.leaf 911074274450000000000000000000000000000000))
 (.node 1 (.leaf 109476923300000000000000000000)
 (.leaf 11087521546000000000010875215460000000000)))
 (.node 2 (.node 1 (.leaf 105677026100000000000000000000)
 (.leaf 104923776100000000000000000000))
 (.node 1 (.leaf 111417664500000000000000000000)
 (.leaf 11115995726000000000011159957260000000000)))))
 (.node 8 (.node 4 (.node 2 (.node 1 (.leaf 371077226718000000000000000000000000000000)
 (.leaf 106838024500000000000000000000))
 (.node 1 (.leaf 591004125992000000000000000000000000000000)
 (.leaf 641049633100000000000000000000000000000000)))
 (.node 2 (.node 1 (.leaf 811110840697106801232100000000000000000000)
 (.leaf 11119053030000000000011190530300000000000))
 (.node 1 (.leaf 111173537600000000000000000000)
 (.leaf 801093438063000000000000000000000000000000))))
 (.node 4 (.node 2 (.node 1 (.leaf 1059483482)
 (.leaf 106980026900000000000000000000))
 (.node 1 (.leaf 97451697700000000000000000000)
 (.leaf 111985396300000000000000000000)))
 (.node 2 (.node 1 (.leaf 1059889615)
 (.leaf 11047536323000000000010475363230000000000))
 (.node 1 (.leaf 1006934506)
 (.leaf 111569605800000000000000000000))))))))))
 (.node 256 (.node 128 (.node 64 (.node 32 (.node 16 (.node 8 (.node 4 (.node 2 (.node 1 (.leaf 1026373952)
 (.leaf 109152463500000000000000000000))
 (.node 1 (.leaf 1052403090)
 (.leaf 1053186618)))
 (.node 2 (.node 1 (.leaf 110603938000000000000000000000)
 (.leaf 11086396597000000000010863965970000000000))
 (.node 1 (.leaf 111049040200000000000000000000)
 (.leaf 1051207143))))
 (.node 4 (.node 2 (.node 1 (.leaf 111891660100000000000000000000)
 (.leaf 108864471000000000000000000000))
 (.node 1 (.leaf 108496146100000000001054278962)
 (.leaf 107872264400000000000000000000)))
 (.node 2 (.node 1 (.leaf 1038993899)
 (.leaf 1047268824))
 (.node 1 (.leaf 781069355955000000000000000000000000000000)
 (.leaf 109632731200000000000000000000)))))
 (.node 8 (.node 4 (.node 2 (.node 1 (.leaf 1131034042298000000000000000000001052062637)
 (.leaf 531076302066000000000000000000000000000000))
 (.node 1 (.leaf 791061341964000000000000000000001064907679)
 (.leaf 1052337023)))
 (.node 2 (.node 1 (.leaf 1056865463)
 (.leaf 108609509800000000000000000000))
 (.node 1 (.leaf 1026050227)
 (.leaf 871078847916000000000000000000001043251963))))
 (.node 4 (.node 2 (.node 1 (.leaf 1021088227047000000000000000000001033929532)
 (.leaf 1029966306))
 (.node 1 (.leaf 2410664756240361088205197000000000000000000000000000000)
 (.leaf 211048192954000000000000000000000000000000)))
 (.node 2 (.node 1 (.leaf 1043534169)
 (.leaf 11085018924000000000010850189240000000000))
 (.node 1 (.leaf 731084861315000000000000000000000000000000)
 (.leaf 510959276517000000000000000000001067081109))))))
 (.node 16 (.node 8 (.node 4 (.node 2 (.node 1 (.leaf 361058855476000000000000000000000000000000)
 (.leaf 631072524877000000000000000000000000000000))
 (.node 1 (.leaf 3710780618300421078602222000000000000000000001063454050)
 (.leaf 1044640831)))
 (.node 2 (.node 1 (.leaf 10910456111051161053973320000000000000000000000000000000)
 (.leaf 1071056379533000000000000000000000000000000))
 (.node 1 (.leaf 1001060592985000000000000000000001036586054)
 (.leaf 109871838000000000000000000000))))
 (.node 4 (.node 2 (.node 1 (.leaf 1016534333)
 (.leaf 1091062560003000000000000000000000000000000))
 (.node 1 (.leaf 1058381313)
 (.leaf 1034634867)))
 (.node 2 (.node 1 (.leaf 941084297800000000000000000000000000000000)
 (.leaf 941078569022000000000000000000000000000000))
 (.node 1 (.leaf 681055325764000000000000000000000000000000)
 (.leaf 811065766403000000000000000000001064161135)))))
 (.node 8 (.node 4 (.node 2 (.node 1 (.leaf 1161079270855000000000000000000000000000000)
 (.leaf 102924588200000000000000000000))
 (.node 1 (.leaf 108824268600000000000000000000)
 (.leaf 1018517005)))
 (.node 2 (.node 1 (.leaf 111285772000000000000000000000)
 (.leaf 106887206900000000000000000000))
 (.node 1 (.leaf 111762412700000000000000000000)
 (.leaf 1041058602602000000000000000000000000000000))))
 (.node 4 (.node 2 (.node 1 (.leaf 1021087108803000000000000000000000000000000)
 (.leaf 110353102900000000000000000000))
 (.node 1 (.leaf 781070151775000000000000000000000000000000)
 (.leaf 7310824936780781082684554000000000000000000000000000000)))
 (.node 2 (.node 1 (.leaf 7310655371930751091734494000000000000000000000000000000)
 (.leaf 68106624590507310734863990991091556385000000000000000000000000000000))
 (.node 1 (.leaf 107291655300000000000000000000)
 (.leaf 811086170014000000000000000000000000000000)))))))
 (.node 32 (.node 16 (.node 8 (.node 4 (.node 2 (.node 1 (.leaf 781078024977000000000000000000000000000000)
 (.leaf 107531833700000000000000000000))
 (.node 1 (.leaf 112040345600000000000000000000)
 (.leaf 11120403456000000000011204034560000000000)))
 (.node 2 (.node 1 (.leaf 109272251800000000000000000000)
 (.leaf 104233843200000000000000000000))
 (.node 1 (.leaf 110595114300000000000000000000)
 (.leaf 106929871400000000000000000000))))
 (.node 4 (.node 2 (.node 1 (.leaf 107830535300000000000000000000)
 (.leaf 109478978500000000000000000000))
 (.node 1 (.leaf 108373955600000000000000000000)
 (.leaf 109483686600000000000000000000)))
 (.node 2 (.node 1 (.leaf 109196182800000000000000000000)
 (.leaf 108400438400000000000000000000))
 (.node 1 (.leaf 106974591100000000000000000000)
 (.leaf 671106185681000000000000000000000000000000)))))
 (.node 8 (.node 4 (.node 2 (.node 1 (.leaf 110818534400000000000000000000)
 (.leaf 110084966300000000000000000000))
 (.node 1 (.leaf 911065557601000000000000000000000000000000)
 (.leaf 11093693063000000000010936930630000000000)))
 (.node 2 (.node 1 (.leaf 109218688400000000000000000000)
 (.leaf 108333807700000000000000000000))
 (.node 1 (.leaf 11061633371000000000010616333710000000000)
 (.leaf 109262500000000000000000000000))))
 (.node 4 (.node 2 (.node 1 (.leaf 111443614100000000000000000000)
 (.leaf 11116372792000000000011163727920000000000))
 (.node 1 (.leaf 401087509992000000000000000000000000000000)
 (.leaf 108510603900000000000000000000)))
 (.node 2 (.node 1 (.leaf 107428385400000000000000000000)
 (.leaf 641083407936000000000000000000000000000000))
 (.node 1 (.leaf 7710197090360811111016920108335936300000000000000000000)
 (.leaf 11118732747000000000011187327470000000000))))))
 (.node 16 (.node 8 (.node 4 (.node 2 (.node 1 (.leaf 111276924600000000000000000000)
 (.leaf 1051899783))
 (.node 1 (.leaf 1042761276)
 (.leaf 11093201911000000000010932019111042708751)))
 (.node 2 (.node 1 (.leaf 109385393100000000000000000000)
 (.leaf 102574486700000000000000000000))
 (.node 1 (.leaf 110462102400000000000000000000)
 (.leaf 681061595856000000000000000000001047260351))))
 (.node 4 (.node 2 (.node 1 (.leaf 109675859100000000000000000000)
 (.leaf 11112179786000000000011121797860000000000))
 (.node 1 (.leaf 541070331761000000000000000000000000000000)
 (.leaf 111185984200000000000000000000)))
 (.node 2 (.node 1 (.leaf 501056273412000000000000000000000000000000)
 (.leaf 111942166100000000000000000000))
 (.node 1 (.leaf 1030123489)
 (.leaf 110093061300000000000000000000)))))
 (.node 8 (.node 4 (.node 2 (.node 1 (.leaf 1062250210)
 (.leaf 106434742200000000000000000000))
 (.node 1 (.leaf 781090742405000000000000000000000000000000)
 (.leaf 1046300103)))
 (.node 2 (.node 1 (.leaf 981034782383000000000000000000001025385398)
 (.leaf 1050685399))
 (.node 1 (.leaf 671055207752000000000000000000000000000000)
 (.leaf 1048634832))))
 (.node 4 (.node 2 (.node 1 (.leaf 1021069114270000000000000000000001061327617)
 (.leaf 8710781589120921078159174000000000000000000000000000000))
 (.node 1 (.leaf 1056753233)
 (.leaf 1041070870081000000000000000000000000000000)))
 (.node 2 (.node 1 (.leaf 2410675831390381079195683000000000000000000001056743017)
 (.leaf 1041600877))
 (.node 1 (.leaf 211082186068000000000000000000000000000000)
 (.leaf 105370701000000000000000000000))))))))
 (.node 64 (.node 32 (.node 16 (.node 8 (.node 4 (.node 2 (.node 1 (.leaf 1062520161)
 (.leaf 5110730900060651077052011000000000000000000001067347652))
 (.node 1 (.leaf 631068688517000000000000000000001038971891)
 (.leaf 421066098659000000000000000000001047001872)))
 (.node 2 (.node 1 (.leaf 1091074989440000000000000000000000000000000)
 (.leaf 1071052368418000000000000000000000000000000))
 (.node 1 (.leaf 111102247600000000000000000000)
 (.leaf 106075241700000000001034280100))))
 (.node 4 (.node 2 (.node 1 (.leaf 1091083909694000000000000000000000000000000)
 (.leaf 108396862800000000000000000000))
 (.node 1 (.leaf 1057390371)
 (.leaf 811085428763000000000000000000000000000000)))
 (.node 2 (.node 1 (.leaf 1161083548199000000000000000000000000000000)
 (.leaf 1022852020))
 (.node 1 (.leaf 108312970400000000000000000000)
 (.leaf 1062535422)))))
 (.node 8 (.node 4 (.node 2 (.node 1 (.leaf 1044179116)
 (.leaf 109215974700000000000000000000))
 (.node 1 (.leaf 105231429900000000000000000000)
 (.leaf 110902569900000000000000000000)))
 (.node 2 (.node 1 (.leaf 1015499307)
 (.leaf 1021095052487000000000000000000000000000000))
 (.node 1 (.leaf 109335271200000000000000000000)
 (.leaf 731082280009000000000000000000000000000000))))
 (.node 4 (.node 2 (.node 1 (.leaf 751081325844000000000000000000000000000000)
 (.leaf 781048449166000000000000000000000000000000))
 (.node 1 (.leaf 110611393400000000000000000000)
 (.leaf 112039356000000000000000000000)))
 (.node 2 (.node 1 (.leaf 112040345600000000000000000000)
 (.leaf 11120375508000000000011203755080000000000))
 (.node 1 (.leaf 109005242400000000000000000000)
 (.leaf 109862956600000000000000000000))))))
 (.node 16 (.node 8 (.node 4 (.node 2 (.node 1 (.leaf 104504855700000000000000000000)
 (.leaf 108185465700000000000000000000))
 (.node 1 (.leaf 110365528600000000000000000000)
 (.leaf 110920241000000000000000000000)))
 (.node 2 (.node 1 (.leaf 107530617400000000000000000000)
 (.leaf 111503230900000000000000000000))
 (.node 1 (.leaf 106699889300000000000000000000)
 (.leaf 111734004100000000000000000000))))
 (.node 4 (.node 2 (.node 1 (.leaf 110279141600000000000000000000)
 (.leaf 11111414793000000000011114147930000000000))
 (.node 1 (.leaf 110729963800000000000000000000)
 (.leaf 541078622811000000000000000000000000000000)))
 (.node 2 (.node 1 (.leaf 111763446800000000000000000000)
 (.leaf 401081762047000000000000000000000000000000))
 (.node 1 (.leaf 11105101344107000050511051013440000000000)
 (.leaf 106850380900000000000000000000)))))
 (.node 8 (.node 4 (.node 2 (.node 1 (.leaf 109299703500000000000000000000)
 (.leaf 641095408936000000000000000000000000000000))
 (.node 1 (.leaf 7711042892560811104461251000000000000000000000000000000)
 (.leaf 11117890268000000000011178902680000000000)))
 (.node 2 (.node 1 (.leaf 111040229500000000000000000000)
 (.leaf 11096491346000000000010964913460000000000))
 (.node 1 (.leaf 104543913000000000000000000000)
 (.leaf 11092467182108557261310924671820000000000))))
 (.node 4 (.node 2 (.node 1 (.leaf 107562330500000000000000000000)
 (.leaf 411033183615000000000000000000000000000000))
 (.node 1 (.leaf 11109820873000000000011098208730000000000)
 (.leaf 110359756100000000000000000000)))
 (.node 2 (.node 1 (.leaf 110989116700000000000000000000)
 (.leaf 501070555878000000000000000000000000000000))
 (.node 1 (.leaf 110882597100000000001055256824)
 (.leaf 1036271138)))))))
 (.node 32 (.node 16 (.node 8 (.node 4 (.node 2 (.node 1 (.leaf 108790447900000000000000000000)
 (.leaf 111885495800000000000000000000))
 (.node 1 (.leaf 1035226991)
 (.leaf 1066143119)))
 (.node 2 (.node 1 (.leaf 411048022601000000000000000000000000000000)
 (.leaf 1048468755))
 (.node 1 (.leaf 1049322718)
 (.leaf 1091033565392000000000000000000000000000000))))
 (.node 4 (.node 2 (.node 1 (.leaf 6210719918240671082331015000000000000000000000000000000)
 (.leaf 1054946498))
 (.node 1 (.leaf 1051491749)
 (.leaf 8710567937490921067485601000000000000000000000000000000)))
 (.node 2 (.node 1 (.leaf 1038102905)
 (.leaf 1069312472))
 (.node 1 (.leaf 381064414084000000000000000000000000000000)
 (.leaf 441091490455000000000000000000000000000000)))))
 (.node 8 (.node 4 (.node 2 (.node 1 (.leaf 1024711255)
 (.leaf 1034209284))
 (.node 1 (.leaf 1038592713)
 (.leaf 1055166295)))
 (.node 2 (.node 1 (.leaf 1041049603949000000000000000000001036284840)
 (.leaf 109821810400000000000000000000))
 (.node 1 (.leaf 1091063977060000000000000000000000000000000)
 (.leaf 1051104082376000000000000000000000000000000))))
 (.node 4 (.node 2 (.node 1 (.leaf 6009817794020811074088008000000000000000000000000000000)
 (.leaf 641079422783000000000000000000000000000000))
 (.node 1 (.leaf 109409279700000000000000000000)
 (.leaf 108356597400000000000000000000)))
 (.node 2 (.node 1 (.leaf 111039980500000000000000000000)
 (.leaf 11112589566000000000011125895660000000000))
 (.node 1 (.leaf 108325349900000000000000000000)
 (.leaf 107329538200000000000000000000))))))
 (.node 16 (.node 8 (.node 4 (.node 2 (.node 1 (.leaf 1021079046920000000000000000000000000000000)
 (.leaf 1015887177))
 (.node 1 (.leaf 108850147500000000000000000000)
 (.leaf 791068352128000000000000000000000000000000)))
 (.node 2 (.node 1 (.leaf 1065555464)
 (.leaf 631058088012000000000000000000000000000000))
 (.node 1 (.leaf 112040345600000000000000000000)
 (.leaf 110125949900000000000000000000))))
 (.node 4 (.node 2 (.node 1 (.leaf 109387951600000000000000000000)
 (.leaf 111404085400000000000000000000))
 (.node 1 (.leaf 111695634100000000000000000000)
 (.leaf 110636622200000000000000000000)))
 (.node 2 (.node 1 (.leaf 11094468223000000000010944682230000000000)
 (.leaf 101815603500000000000000000000))
 (.node 1 (.leaf 111783975300000000000000000000)
 (.leaf 541086728304000000000000000000000000000000)))))
 (.node 8 (.node 4 (.node 2 (.node 1 (.leaf 4010453153010411069457748000000000000000000000000000000)
 (.leaf 11105374007106131670211053740070000000000))
 (.node 1 (.leaf 109676698000000000000000000000)
 (.leaf 641100964768000000000000000000000000000000)))
 (.node 2 (.node 1 (.leaf 771113434206000000000000000000000000000000)
 (.leaf 11117295830000000000011172958300000000000))
 (.node 1 (.leaf 110934918400000000000000000000)
 (.leaf 108710160500000000000000000000))))
 (.node 4 (.node 2 (.node 1 (.leaf 11057912965000000000010579129650000000000)
 (.leaf 411078133879000000000000000000000000000000))
 (.node 1 (.leaf 11087101824000000000010871018240000000000)
 (.leaf 108862998800000000000000000000)))
 (.node 2 (.node 1 (.leaf 111216885800000000000000000000)
 (.leaf 111652406600000000001035073438))
 (.node 1 (.leaf 701090757597000000000000000000000000000000)
 (.leaf 411084253296000000000000000000000000000000)))))))))
 (.node 128 (.node 64 (.node 32 (.node 16 (.node 8 (.node 4 (.node 2 (.node 1 (.leaf 1091070796265000000000000000000000000000000)
 (.leaf 631077709307000000000000000000000000000000))
 (.node 1 (.leaf 921096461871000000000000000000000000000000)
 (.leaf 1049520903)))
 (.node 2 (.node 1 (.leaf 1027674698)
 (.leaf 441075944123000000000000000000000000000000))
 (.node 1 (.leaf 1040318616)
 (.leaf 1047773166))))
 (.node 4 (.node 2 (.node 1 (.leaf 11093680332105875663310936803320000000000)
 (.leaf 661067015256000000000000000000001035700841))
 (.node 1 (.leaf 1051553930)
 (.leaf 1049681186)))
 (.node 2 (.node 1 (.leaf 109288997500000000000000000000)
 (.leaf 10510695154621071077030445000000000000000000000000000000))
 (.node 1 (.leaf 601073784875000000000000000000000000000000)
 (.leaf 110885315500000000000000000000)))))
 (.node 8 (.node 4 (.node 2 (.node 1 (.leaf 108019882900000000000000000000)
 (.leaf 1131093578447000000000000000000000000000000))
 (.node 1 (.leaf 111086322300000000000000000000)
 (.leaf 10947359718000000000009473597180000000000)))
 (.node 2 (.node 1 (.leaf 105665097500000000000000000000)
 (.leaf 108284820300000000000000000000))
 (.node 1 (.leaf 107804673200000000000000000000)
 (.leaf 751030126721000000000000000000000000000000))))
 (.node 4 (.node 2 (.node 1 (.leaf 711054793977000000000000000000000000000000)
 (.leaf 110374866100000000000000000000))
 (.node 1 (.leaf 791084932633000000000000000000000000000000)
 (.leaf 112040345600000000000000000000)))
 (.node 2 (.node 1 (.leaf 112040345600000000000000000000)
 (.leaf 110277458700000000000000000000))
 (.node 1 (.leaf 111006842900000000000000000000)
 (.leaf 108765682600000000000000000000))))))
 (.node 16 (.node 8 (.node 4 (.node 2 (.node 1 (.leaf 110837998600000000000000000000)
 (.leaf 110031520400000000000000000000))
 (.node 1 (.leaf 108661395400000000000000000000)
 (.leaf 110908557200000000000000000000)))
 (.node 2 (.node 1 (.leaf 541095883475000000000000000000000000000000)
 (.leaf 411114803948000000000000000000000000000000))
 (.node 1 (.leaf 11084235311000000000010842353110000000000)
 (.leaf 109196510000000000000000000000))))
 (.node 4 (.node 2 (.node 1 (.leaf 641110095713000000000000000000000000000000)
 (.leaf 7711115859750781111593929000000000000000000000000000000))
 (.node 1 (.leaf 1060732332)
 (.leaf 110552830400000000000000000000)))
 (.node 2 (.node 1 (.leaf 901045492093000000000000000000000000000000)
 (.leaf 641085347460000000000000000000000000000000))
 (.node 1 (.leaf 1034521565)
 (.leaf 641090133185000000000000000000000000000000)))))
 (.node 8 (.node 4 (.node 2 (.node 1 (.leaf 109645282700000000000000000000)
 (.leaf 1085006994))
 (.node 1 (.leaf 11094632504000000000010946325040000000000)
 (.leaf 110949346800000000000000000000)))
 (.node 2 (.node 1 (.leaf 411084961910000000000000000000001051616649)
 (.leaf 571019697863000000000000000000000000000000))
 (.node 1 (.leaf 109926017900000000000000000000)
 (.leaf 111886744900000000000000000000))))
 (.node 4 (.node 2 (.node 1 (.leaf 111917044900000000000000000000)
 (.leaf 1063606487))
 (.node 1 (.leaf 1067390297)
 (.leaf 371083220045000000000000000000000000000000)))
 (.node 2 (.node 1 (.leaf 701104261810000000000000000000000000000000)
 (.leaf 1045774915))
 (.node 1 (.leaf 1057510323)
 (.leaf 1121075793587000000000000000000000000000000)))))))
 (.node 32 (.node 16 (.node 8 (.node 4 (.node 2 (.node 1 (.leaf 108345765700000000000000000000)
 (.leaf 691018358437000000000000000000000000000000))
 (.node 1 (.leaf 1025722088)
 (.leaf 631091135829000000000000000000000000000000)))
 (.node 2 (.node 1 (.leaf 921077604035000000000000000000000000000000)
 (.leaf 4410841190580661087460082000000000000000000000000000000))
 (.node 1 (.leaf 671062522514000000000000000000001042485276)
 (.leaf 11108282637000000000011082826370000000000))))
 (.node 4 (.node 2 (.node 1 (.leaf 982574395)
 (.leaf 1042293455))
 (.node 1 (.leaf 1033469720)
 (.leaf 6410339386810921071317236000000000000000000000000000000)))
 (.node 2 (.node 1 (.leaf 1054659704)
 (.leaf 601083395715000000000000000000000000000000))
 (.node 1 (.leaf 1050881694)
 (.leaf 111131833100000000000000000000)))))
 (.node 8 (.node 4 (.node 2 (.node 1 (.leaf 109905072600000000000000000000)
 (.leaf 108586531300000000000000000000))
 (.node 1 (.leaf 108787954400000000000000000000)
 (.leaf 108144365700000000000000000000)))
 (.node 2 (.node 1 (.leaf 7310543575400791092351840000000000000000000000000000000)
 (.leaf 112040345600000000000000000000))
 (.node 1 (.leaf 110212724800000000000000000000)
 (.leaf 891077952577000000000000000000000000000000))))
 (.node 4 (.node 2 (.node 1 (.leaf 111523237700000000000000000000)
 (.leaf 108531393000000000000000000000))
 (.node 1 (.leaf 102135288700000000000000000000)
 (.leaf 111448335300000000000000000000)))
 (.node 2 (.node 1 (.leaf 102485814400000000000000000000)
 (.leaf 1121054502965000000000000000000000000000000))
 (.node 1 (.leaf 111609916900000000000000000000)
 (.leaf 541109667385000000000000000000000000000000))))))
 (.node 16 (.node 8 (.node 4 (.node 2 (.node 1 (.leaf 411113350958000000000000000000000000000000)
 (.leaf 651052408360000000000000000000000000000000))
 (.node 1 (.leaf 11095008984106022255910950089840000000000)
 (.leaf 109087318600000000000000000000)))
 (.node 2 (.node 1 (.leaf 7710849418430781087959367000000000000000000000000000000)
 (.leaf 1075036585))
 (.node 1 (.leaf 901066605133000000000000000000000000000000)
 (.leaf 110984196300000000000000000000))))
 (.node 4 (.node 2 (.node 1 (.leaf 641086321815000000000000000000000000000000)
 (.leaf 1066866926))
 (.node 1 (.leaf 109821611200000000000000000000)
 (.leaf 11097746182000000000010977461820000000000)))
 (.node 2 (.node 1 (.leaf 411077017934000000000000000000000000000000)
 (.leaf 571082395661000000000000000000000000000000))
 (.node 1 (.leaf 1074339450)
 (.leaf 1022239991)))))
 (.node 8 (.node 4 (.node 2 (.node 1 (.leaf 701102352926000000000000000000000000000000)
 (.leaf 371078149807000000000000000000000000000000))
 (.node 1 (.leaf 741048921431000000000000000000001019946257)
 (.leaf 1048984476)))
 (.node 2 (.node 1 (.leaf 8810722445421121072332008000000000000000000000000000000)
 (.leaf 691070857508000000000000000000000000000000))
 (.node 1 (.leaf 631090666906000000000000000000000000000000)
 (.leaf 1001068875967000000000000000000000000000000))))
 (.node 4 (.node 2 (.node 1 (.leaf 4410920102580661094267740000000000000000000000000000000)
 (.leaf 105934004400000000000000000000))
 (.node 1 (.leaf 1131050686382000000000000000000001044605752)
 (.leaf 641065549691000000000000000000001030215176)))
 (.node 2 (.node 1 (.leaf 1066063770)
 (.leaf 1181103829314000000000000000000000000000000))
 (.node 1 (.leaf 107914454900000000000000000000)
 (.leaf 731089358656000000000000000000000000000000))))))))
 (.node 64 (.node 32 (.node 16 (.node 8 (.node 4 (.node 2 (.node 1 (.leaf 112037920800000000000000000000)
 (.leaf 110455213300000000000000000000))
 (.node 1 (.leaf 107859887000000000000000000000)
 (.leaf 891102007974000000000000000000000000000000)))
 (.node 2 (.node 1 (.leaf 111963095700000000000000000000)
 (.leaf 109451547800000000000000000000))
 (.node 1 (.leaf 671101470850000000000000000000000000000000)
 (.leaf 111307802500000000000000000000))))
 (.node 4 (.node 2 (.node 1 (.leaf 110695305700000000000000000000)
 (.leaf 1121069933961000000000000000000000000000000))
 (.node 1 (.leaf 109415067800000000000000000000)
 (.leaf 108816370800000000000000000000)))
 (.node 2 (.node 1 (.leaf 111490435600000000000000000000)
 (.leaf 106685528000000000000000000000))
 (.node 1 (.leaf 541094006451000000000000000000000000000000)
 (.leaf 651066502303000000000000000000000000000000)))))
 (.node 8 (.node 4 (.node 2 (.node 1 (.leaf 109034338300000000000000000000)
 (.leaf 781075439290000000000000000000000000000000))
 (.node 1 (.leaf 901077995812000000000000000000000000000000)
 (.leaf 109520040800000000000000000000)))
 (.node 2 (.node 1 (.leaf 681039693593000000000000000000000000000000)
 (.leaf 110099683100000000000000000000))
 (.node 1 (.leaf 641096080751000000000000000000000000000000)
 (.leaf 110692411600000000000000000000))))
 (.node 4 (.node 2 (.node 1 (.leaf 1042104209)
 (.leaf 11093099647000000000010930996470000000000))
 (.node 1 (.leaf 411079872239000000000000000000000000000000)
 (.leaf 571083747019000000000000000000000000000000)))
 (.node 2 (.node 1 (.leaf 581054652027000000000000000000001038007991)
 (.leaf 1056511702))
 (.node 1 (.leaf 881068286587000000000000000000000000000000)
 (.leaf 1033609308))))))
 (.node 16 (.node 8 (.node 4 (.node 2 (.node 1 (.leaf 571095662473000000000000000000000000000000)
 (.leaf 1014310336))
 (.node 1 (.leaf 44104239875706610743435660801082918221000000000000000000000000000000)
 (.leaf 631046905344000000000000000000000000000000)))
 (.node 2 (.node 1 (.leaf 1039326979)
 (.leaf 110273961700000000000000000000))
 (.node 1 (.leaf 1025258489)
 (.leaf 1025540202))))
 (.node 4 (.node 2 (.node 1 (.leaf 11210103870791131060171390000000000000000000000000000000)
 (.leaf 1051034632197000000000000000000000000000000))
 (.node 1 (.leaf 1061043286470000000000000000000000000000000)
 (.leaf 1101057601272000000000000000000000000000000)))
 (.node 2 (.node 1 (.leaf 6610641156021181108663317000000000000000000000000000000)
 (.leaf 651064947495000000000000000000000000000000))
 (.node 1 (.leaf 1111028218706000000000000000000000000000000)
 (.leaf 108694079500000000000000000000)))))
 (.node 8 (.node 4 (.node 2 (.node 1 (.leaf 6810680162000731099883315000000000000000000000000000000)
 (.leaf 112040345600000000000000000000))
 (.node 1 (.leaf 891104030357000000000000000000000000000000)
 (.leaf 111801431500000000000000000000)))
 (.node 2 (.node 1 (.leaf 109924340200000000000000000000)
 (.leaf 671091630840000000000000000000000000000000))
 (.node 1 (.leaf 110888587100000000000000000000)
 (.leaf 111297558000000000000000000000))))
 (.node 4 (.node 2 (.node 1 (.leaf 1121064423822000000000000000000000000000000)
 (.leaf 111895427200000000000000000000))
 (.node 1 (.leaf 551073238315000000000000000000000000000000)
 (.leaf 1033971553)))
 (.node 2 (.node 1 (.leaf 1063747311)
 (.leaf 109293024100000000000000000000))
 (.node 1 (.leaf 781052959247000000000000000000000000000000)
 (.leaf 901070379078000000000000000000000000000000)))))))
 (.node 32 (.node 16 (.node 8 (.node 4 (.node 2 (.node 1 (.leaf 111823294300000000000000000000)
 (.leaf 11081041061000000000010810410610000000000))
 (.node 1 (.leaf 681080884738000000000000000000000000000000)
 (.leaf 761083554460000000000000000000000000000000)))
 (.node 2 (.node 1 (.leaf 11071338290000000000010713382900000000000)
 (.leaf 491025511257000000000000000000000000000000))
 (.node 1 (.leaf 581069664984000000000000000000000000000000)
 (.leaf 1066163426))))
 (.node 4 (.node 2 (.node 1 (.leaf 571099597878000000000000000000000000000000)
 (.leaf 111861204300000000000000000000))
 (.node 1 (.leaf 581070150202000000000000000000000000000000)
 (.leaf 1057334407)))
 (.node 2 (.node 1 (.leaf 571084893734000000000000000000000000000000)
 (.leaf 1052988553))
 (.node 1 (.leaf 781092541816000000000000000000000000000000)
 (.leaf 1069622155)))))
 (.node 8 (.node 4 (.node 2 (.node 1 (.leaf 661064089083000000000000000000000000000000)
 (.leaf 1061167110))
 (.node 1 (.leaf 11072991778000000000010729917780000000000)
 (.leaf 11210505850491131057457771000000000000000000000000000000)))
 (.node 2 (.node 1 (.leaf 1121008139532000000000000000000001051804604)
 (.leaf 1051056062247000000000000000000001048358100))
 (.node 1 (.leaf 7210321326391061069723504000000000000000000000000000000)
 (.leaf 661087075423000000000000000000000000000000))))
 (.node 4 (.node 2 (.node 1 (.leaf 651076167283000000000000000000000000000000)
 (.leaf 1111091372628000000000000000000000000000000))
 (.node 1 (.leaf 104321534400000000000000000000)
 (.leaf 108482881700000000000000000000)))
 (.node 2 (.node 1 (.leaf 681089408132000000000000000000000000000000)
 (.leaf 108245970600000000000000000000))
 (.node 1 (.leaf 891101206561000000000000000000000000000000)
 (.leaf 111964663300000000000000000000))))))
 (.node 16 (.node 8 (.node 4 (.node 2 (.node 1 (.leaf 109153924200000000000000000000)
 (.leaf 109991375700000000000000000000))
 (.node 1 (.leaf 110007183000000000000000000000)
 (.leaf 671095335176000000000000000000000000000000)))
 (.node 2 (.node 1 (.leaf 111416235800000000000000000000)
 (.leaf 109737305700000000000000000000))
 (.node 1 (.leaf 551072370072000000000000000000000000000000)
 (.leaf 631060985790000000000000000000000000000000))))
 (.node 4 (.node 2 (.node 1 (.leaf 1067793619)
 (.leaf 1061795704))
 (.node 1 (.leaf 108432969400000000000000000000)
 (.leaf 901082870903000000000000000000000000000000)))
 (.node 2 (.node 1 (.leaf 11098000981000000000010980009810000000000)
 (.leaf 681085740153000000000000000000000000000000))
 (.node 1 (.leaf 761093704610000000000000000000000000000000)
 (.leaf 108739694700000000001044608183)))))
 (.node 8 (.node 4 (.node 2 (.node 1 (.leaf 521040384949000000000000000000000000000000)
 (.leaf 581059121281000000000000000000000000000000))
 (.node 1 (.leaf 571094363466000000000000000000000000000000)
 (.leaf 1054012559)))
 (.node 2 (.node 1 (.leaf 109958287900000000000000000000)
 (.leaf 581055257171000000000000000000001045534564))
 (.node 1 (.leaf 1029974779)
 (.leaf 1050795225))))
 (.node 4 (.node 2 (.node 1 (.leaf 781096914170000000000000000000000000000000)
 (.leaf 861079132649000000000000000000000000000000))
 (.node 1 (.leaf 661076684934000000000000000000000000000000)
 (.leaf 1044907218)))
 (.node 2 (.node 1 (.leaf 11083708934000000000010837089340000000000)
 (.leaf 1001065466147000000000000000000000000000000))
 (.node 1 (.leaf 1121058251773000000000000000000001027193133)
 (.leaf 1061075053563000000000000000000000000000000)))))))))))
 (.node 512 (.node 256 (.node 128 (.node 64 (.node 32 (.node 16 (.node 8 (.node 4 (.node 2 (.node 1 (.leaf 651099170334000000000000000000000000000000)
 (.leaf 110003497200000000000000000000))
 (.node 1 (.leaf 1111071919613000000000000000000000000000000)
 (.leaf 111290739600000000000000000000)))
 (.node 2 (.node 1 (.leaf 110645634700000000000000000000)
 (.leaf 891089989200000000000000000000000000000000))
 (.node 1 (.leaf 111850846900000000000000000000)
 (.leaf 109648292100000000000000000000))))
 (.node 4 (.node 2 (.node 1 (.leaf 106793246100000000000000000000)
 (.leaf 109119029600000000000000000000))
 (.node 1 (.leaf 671093853434000000000000000000000000000000)
 (.leaf 111173870600000000000000000000)))
 (.node 2 (.node 1 (.leaf 111963841500000000000000000000)
 (.leaf 11051903012000000000000000000000000000000))
 (.node 1 (.leaf 551094419620000000000000000000000000000000)
 (.leaf 631096046993000000000000000000000000000000)))))
 (.node 8 (.node 4 (.node 2 (.node 1 (.leaf 108420202000000000000000000000)
 (.leaf 901083076373000000000000000000000000000000))
 (.node 1 (.leaf 11043959951000000000010439599510000000000)
 (.leaf 681079645529000000000000000000000000000000)))
 (.node 2 (.node 1 (.leaf 109719102400000000000000000000)
 (.leaf 6010721991790761086945238000000000000000000000000000000))
 (.node 1 (.leaf 111074500383000000000000000000001060854914)
 (.leaf 571048762137000000000000000000000000000000))))
 (.node 4 (.node 2 (.node 1 (.leaf 521104997532000000000000000000000000000000)
 (.leaf 581027265498000000000000000000000000000000))
 (.node 1 (.leaf 1040636443)
 (.leaf 110860815600000000001040236439)))
 (.node 2 (.node 1 (.leaf 107201922300000000000000000000)
 (.leaf 861090637716000000000000000000000000000000))
 (.node 1 (.leaf 781069460889000000000000000000000000000000)
 (.leaf 1029292123))))))
 (.node 16 (.node 8 (.node 4 (.node 2 (.node 1 (.leaf 761057573750000000000000000000000000000000)
 (.leaf 1062444470))
 (.node 1 (.leaf 1062305992)
 (.leaf 1121071530919000000000000000000000000000000)))
 (.node 2 (.node 1 (.leaf 1061009119699000000000000000000000000000000)
 (.leaf 109055275200000000000000000000))
 (.node 1 (.leaf 108593575600000000000000000000)
 (.leaf 651096208003000000000000000000000000000000))))
 (.node 4 (.node 2 (.node 1 (.leaf 111565553000000000000000000000)
 (.leaf 991099567028000000000000000000000000000000))
 (.node 1 (.leaf 110182950500000000000000000000)
 (.leaf 108892877000000000000000000000)))
 (.node 2 (.node 1 (.leaf 109379500100000000000000000000)
 (.leaf 109214082000000000000000000000))
 (.node 1 (.leaf 109799056300000000000000000000)
 (.leaf 671089921996000000000000000000000000000000)))))
 (.node 8 (.node 4 (.node 2 (.node 1 (.leaf 111511923600000000000000000000)
 (.leaf 102454721500000000000000000000))
 (.node 1 (.leaf 551068173365000000000000000000000000000000)
 (.leaf 631096108733000000000000000000000000000000)))
 (.node 2 (.node 1 (.leaf 109074187300000000000000000000)
 (.leaf 571067581086000000000000000000000000000000))
 (.node 1 (.leaf 681091712481000000000000000000000000000000)
 (.leaf 111845322300000000000000000000))))
 (.node 4 (.node 2 (.node 1 (.leaf 871071381994000000000000000000000000000000)
 (.leaf 1059394313))
 (.node 1 (.leaf 601102536472000000000000000000000000000000)
 (.leaf 105513431400000000000000000000)))
 (.node 2 (.node 1 (.leaf 11075890936000000000010758909360000000000)
 (.leaf 521105656673000000000000000000000000000000))
 (.node 1 (.leaf 110998986400000000001062448144)
 (.leaf 651104551727000000000000000000000000000000)))))))
 (.node 32 (.node 16 (.node 8 (.node 4 (.node 2 (.node 1 (.leaf 998887884)
 (.leaf 761075298950000000000000000000000000000000))
 (.node 1 (.leaf 641094147551000000000000000000001045607566)
 (.leaf 761089732590000000000000000000000000000000)))
 (.node 2 (.node 1 (.leaf 141059157468000000000000000000001069862995)
 (.leaf 973010439))
 (.node 1 (.leaf 1121079395650000000000000000000000000000000)
 (.leaf 1049768790))))
 (.node 4 (.node 2 (.node 1 (.leaf 251047020711000000000000000000000000000000)
 (.leaf 651100609068000000000000000000000000000000))
 (.node 1 (.leaf 104871984800000000000000000000)
 (.leaf 991086365944000000000000000000000000000000)))
 (.node 2 (.node 1 (.leaf 11058189779000000000000000000000000000000)
 (.leaf 791094539502000000000000000000000000000000))
 (.node 1 (.leaf 112036699200000000000000000000)
 (.leaf 111226399000000000000000000000)))))
 (.node 8 (.node 4 (.node 2 (.node 1 (.leaf 108098622600000000000000000000)
 (.leaf 111713203000000000000000000000))
 (.node 1 (.leaf 109990568300000000000000000000)
 (.leaf 109211657700000000000000000000)))
 (.node 2 (.node 1 (.leaf 109138418900000000000000000000)
 (.leaf 671088739928000000000000000000000000000000))
 (.node 1 (.leaf 109069545200000000000000000000)
 (.leaf 111312744000000000000000000000))))
 (.node 4 (.node 2 (.node 1 (.leaf 551074122659000000000000000000000000000000)
 (.leaf 631096791574000000000000000000000000000000))
 (.node 1 (.leaf 108548012900000000000000000000)
 (.leaf 571088794792000000000000000000000000000000)))
 (.node 2 (.node 1 (.leaf 721049258235000000000000000000000000000000)
 (.leaf 111426241800000000000000000000))
 (.node 1 (.leaf 871089159296000000000000000000000000000000)
 (.leaf 1037925141))))))
 (.node 16 (.node 8 (.node 4 (.node 2 (.node 1 (.leaf 601111845808000000000000000000000000000000)
 (.leaf 111377873600000000000000000000))
 (.node 1 (.leaf 521106856194000000000000000000000000000000)
 (.leaf 631066216034000000000000000000000000000000)))
 (.node 2 (.node 1 (.leaf 111823479100000000000000000000)
 (.leaf 641078754084000000000000000000001033393588))
 (.node 1 (.leaf 971067696536000000000000000000001015214868)
 (.leaf 6410748505170701075024144000000000000000000000000000000))))
 (.node 4 (.node 2 (.node 1 (.leaf 1040318076)
 (.leaf 110214344900000000000000000000))
 (.node 1 (.leaf 1021048985666000000000000000000000000000000)
 (.leaf 1091069917321000000000000000000000000000000)))
 (.node 2 (.node 1 (.leaf 1024959059)
 (.leaf 251055011636000000000000000000000000000000))
 (.node 1 (.leaf 651106414459000000000000000000000000000000)
 (.leaf 991100337749000000000000000000000000000000)))))
 (.node 8 (.node 4 (.node 2 (.node 1 (.leaf 10958828020000000000000000000000000000000)
 (.leaf 791088866521000000000000000000000000000000))
 (.node 1 (.leaf 109559320400000000000000000000)
 (.leaf 110344310600000000000000000000)))
 (.node 2 (.node 1 (.leaf 109731066700000000000000000000)
 (.leaf 106916399300000000000000000000))
 (.node 1 (.leaf 671080107353000000000000000000000000000000)
 (.leaf 110057399300000000000000000000))))
 (.node 4 (.node 2 (.node 1 (.leaf 551076380028000000000000000000000000000000)
 (.leaf 109108559600000000000000000000))
 (.node 1 (.leaf 571086430564000000000000000000000000000000)
 (.leaf 110815480400000000000000000000)))
 (.node 2 (.node 1 (.leaf 601097419723000000000000000000000000000000)
 (.leaf 110832320500000000000000000000))
 (.node 1 (.leaf 1043664471)
 (.leaf 631075432351000000000000000000000000000000))))))))
 (.node 64 (.node 32 (.node 16 (.node 8 (.node 4 (.node 2 (.node 1 (.leaf 110209343200000000000000000000)
 (.leaf 109737746100000000000000000000))
 (.node 1 (.leaf 641019231868000000000000000000000000000000)
 (.leaf 1001059968044000000000000000000000000000000)))
 (.node 2 (.node 1 (.leaf 1069989355)
 (.leaf 1015741975))
 (.node 1 (.leaf 1141058188379000000000000000000000000000000)
 (.leaf 1091065155741000000000000000000000000000000))))
 (.node 4 (.node 2 (.node 1 (.leaf 108093572600000000000000000000)
 (.leaf 651107506358000000000000000000000000000000))
 (.node 1 (.leaf 107228371600000000000000000000)
 (.leaf 791060901577000000000000000000000000000000)))
 (.node 2 (.node 1 (.leaf 107611122800000000000000000000)
 (.leaf 112040345600000000000000000000))
 (.node 1 (.leaf 109364033600000000000000000000)
 (.leaf 104058031400000000000000000000)))))
 (.node 8 (.node 4 (.node 2 (.node 1 (.leaf 109603727600000000000000000000)
 (.leaf 551083768743000000000000000000000000000000))
 (.node 1 (.leaf 108731710800000000000000000000)
 (.leaf 571088697358000000000000000000000000000000)))
 (.node 2 (.node 1 (.leaf 721099198839000000000000000000000000000000)
 (.leaf 111857124000000000000000000000))
 (.node 1 (.leaf 641087640239000000000000000000000000000000)
 (.leaf 1034124667))))
 (.node 4 (.node 2 (.node 1 (.leaf 1013990633)
 (.leaf 351062844330000000000000000000000000000000))
 (.node 1 (.leaf 4910738991810521076651081000000000000000000001040601183)
 (.leaf 1049728561)))
 (.node 2 (.node 1 (.leaf 1062149703)
 (.leaf 107519292700000000000000000000))
 (.node 1 (.leaf 1141073436838000000000000000000000000000000)
 (.leaf 108717439700000000000000000000))))))
 (.node 16 (.node 8 (.node 4 (.node 2 (.node 1 (.leaf 100902880000000000000000000000)
 (.leaf 651107784497000000000000000000000000000000))
 (.node 1 (.leaf 601091935115107566369600000000000000000000)
 (.leaf 111874384900000000000000000000)))
 (.node 2 (.node 1 (.leaf 112040345600000000000000000000)
 (.leaf 110151068500000000000000000000))
 (.node 1 (.leaf 109905282300000000000000000000)
 (.leaf 100645783300000000000000000000))))
 (.node 4 (.node 2 (.node 1 (.leaf 551106590574000000000000000000000000000000)
 (.leaf 108788889700000000000000000000))
 (.node 1 (.leaf 601079581567000000000000000000000000000000)
 (.leaf 571104999715000000000000000000000000000000)))
 (.node 2 (.node 1 (.leaf 721093642000000000000000000000000000000000)
 (.leaf 641099101144000000000000000000000000000000))
 (.node 1 (.leaf 531019529636000000000000000000000000000000)
 (.leaf 691045839366000000000000000000000000000000)))))
 (.node 8 (.node 4 (.node 2 (.node 1 (.leaf 541050964014000000000000000000000000000000)
 (.leaf 351098386942000000000000000000000000000000))
 (.node 1 (.leaf 681083400905000000000000000000000000000000)
 (.leaf 701084900059000000000000000000000000000000)))
 (.node 2 (.node 1 (.leaf 1057970906)
 (.leaf 1141083448627000000000000000000000000000000))
 (.node 1 (.leaf 1043188240)
 (.leaf 110044926400000000000000000000))))
 (.node 4 (.node 2 (.node 1 (.leaf 651083925352000000000000000000000000000000)
 (.leaf 791088682069000000000000000000000000000000))
 (.node 1 (.leaf 591098819218000000000000000000000000000000)
 (.leaf 601063052051000000000000000000000000000000)))
 (.node 2 (.node 1 (.leaf 112031015900000000000000000000)
 (.leaf 112040345600000000000000000000))
 (.node 1 (.leaf 110188822500000000000000000000)
 (.leaf 110227619800000000000000000000)))))))
 (.node 32 (.node 16 (.node 8 (.node 4 (.node 2 (.node 1 (.leaf 1050778518)
 (.leaf 551099937327000000000000000000000000000000))
 (.node 1 (.leaf 109751209800000000000000000000)
 (.leaf 601091464458000000000000000000000000000000)))
 (.node 2 (.node 1 (.leaf 571082024468000000000000000000000000000000)
 (.leaf 721083764447000000000000000000000000000000))
 (.node 1 (.leaf 641069618898000000000000000000000000000000)
 (.leaf 531087668635000000000000000000000000000000))))
 (.node 4 (.node 2 (.node 1 (.leaf 541074442752000000000000000000000000000000)
 (.leaf 351087695314000000000000000000001026478026))
 (.node 1 (.leaf 711034583320000000000000000000001054406435)
 (.leaf 1048626509)))
 (.node 2 (.node 1 (.leaf 1091061872591000000000000000000000000000000)
 (.leaf 108893892000000000000000000000))
 (.node 1 (.leaf 105006843400000000000000000000)
 (.leaf 791102063309000000000000000000000000000000)))))
 (.node 8 (.node 4 (.node 2 (.node 1 (.leaf 591108771471000000000000000000000000000000)
 (.leaf 112040345600000000000000000000))
 (.node 1 (.leaf 109436374900000000000000000000)
 (.leaf 108660963400000000000000000000)))
 (.node 2 (.node 1 (.leaf 106909839400000000000000000000)
 (.leaf 1044933217))
 (.node 1 (.leaf 108222738300000000000000000000)
 (.leaf 601101693724000000000000000000000000000000))))
 (.node 4 (.node 2 (.node 1 (.leaf 721096952795000000000000000000000000000000)
 (.leaf 11102401283000000000011024012830000000000))
 (.node 1 (.leaf 106186728000000000000000000000)
 (.leaf 531088089579000000000000000000000000000000)))
 (.node 2 (.node 1 (.leaf 321082815850000000000000000000000000000000)
 (.leaf 541069905092000000000000000000001042312414))
 (.node 1 (.leaf 111827243500000000000000000000)
 (.leaf 801051192647000000000000000000000000000000))))))
 (.node 16 (.node 8 (.node 4 (.node 2 (.node 1 (.leaf 521067357519000000000000000000000000000000)
 (.leaf 691016081619000000000000000000001055195640))
 (.node 1 (.leaf 831096049158000000000000000000000000000000)
 (.leaf 711066434575000000000000000000000000000000)))
 (.node 2 (.node 1 (.leaf 990208629)
 (.leaf 109154378200000000000000000000))
 (.node 1 (.leaf 791102931891000000000000000000000000000000)
 (.leaf 591111355885000000000000000000000000000000))))
 (.node 4 (.node 2 (.node 1 (.leaf 109772663700000000000000000000)
 (.leaf 109411429300000000000000000000))
 (.node 1 (.leaf 109852858800000000000000000000)
 (.leaf 601085794147000000000000000000000000000000)))
 (.node 2 (.node 1 (.leaf 721101484787000000000000000000000000000000)
 (.leaf 11115780618000000000011157806180000000000))
 (.node 1 (.leaf 108287632600000000000000000000)
 (.leaf 531079482568000000000000000000000000000000)))))
 (.node 8 (.node 4 (.node 2 (.node 1 (.leaf 3210739178250551101003967000000000000000000000000000000)
 (.leaf 5410726148970711076690844000000000000000000001043416488))
 (.node 1 (.leaf 99057165100000000000000000000)
 (.leaf 801047136028000000000000000000000000000000)))
 (.node 2 (.node 1 (.leaf 521079029840000000000000000000000000000000)
 (.leaf 691080949760000000000000000000001034095598))
 (.node 1 (.leaf 711078352106000000000000000000000000000000)
 (.leaf 691071301855000000000000000000000000000000))))
 (.node 4 (.node 2 (.node 1 (.leaf 1121052693565000000000000000000000000000000)
 (.leaf 1022241602))
 (.node 1 (.leaf 105794793700000000000000000000)
 (.leaf 1151067728072000000000000000000000000000000)))
 (.node 2 (.node 1 (.leaf 791099085046000000000000000000000000000000)
 (.leaf 591110570223000000000000000000000000000000))
 (.node 1 (.leaf 1026127472)
 (.leaf 831080402992000000000000000000000000000000)))))))))
 (.node 128 (.node 64 (.node 32 (.node 16 (.node 8 (.node 4 (.node 2 (.node 1 (.leaf 111075907300000000000000000000)
 (.leaf 751078202243000000000000000000000000000000))
 (.node 1 (.leaf 109623860300000000000000000000)
 (.leaf 721085828369000000000000000000000000000000)))
 (.node 2 (.node 1 (.leaf 11114794264000000000011147942640000000000)
 (.leaf 531101308313000000000000000000000000000000))
 (.node 1 (.leaf 551087107691000000000000000000000000000000)
 (.leaf 711070729333000000000000000000000000000000))))
 (.node 4 (.node 2 (.node 1 (.leaf 110736976100000000000000000000)
 (.leaf 1042384415))
 (.node 1 (.leaf 7010482032400861086698971000000000000000000000000000000)
 (.leaf 691055611433000000000000000000000000000000)))
 (.node 2 (.node 1 (.leaf 1121053993249000000000000000000000000000000)
 (.leaf 791089149736000000000000000000000000000000))
 (.node 1 (.leaf 1151074323707000000000000000000000000000000)
 (.leaf 591059133380000000000000000000000000000000)))))
 (.node 8 (.node 4 (.node 2 (.node 1 (.leaf 831097319762000000000000000000000000000000)
 (.leaf 541070337295000000000000000000001005589623))
 (.node 1 (.leaf 109424358200000000000000000000)
 (.leaf 110959300400000000000000000000)))
 (.node 2 (.node 1 (.leaf 11043102060109692825110431020600000000000)
 (.leaf 751075474469000000000000000000000000000000))
 (.node 1 (.leaf 721039175156000000000000000000000000000000)
 (.leaf 621090565494000000000000000000000000000000))))
 (.node 4 (.node 2 (.node 1 (.leaf 11116839451000000000011168394510000000000)
 (.leaf 531092197218000000000000000000000000000000))
 (.node 1 (.leaf 551088223911000000000000000000000000000000)
 (.leaf 711053572744000000000000000000000000000000)))
 (.node 2 (.node 1 (.leaf 109105174800000000001037146513)
 (.leaf 1053166194))
 (.node 1 (.leaf 381074145026000000000000000000001029782292)
 (.leaf 7010685244270861084889159000000000000000000000000000000))))))
 (.node 16 (.node 8 (.node 4 (.node 2 (.node 1 (.leaf 1048826338)
 (.leaf 1121040638052000000000000000000000000000000))
 (.node 1 (.leaf 861067811524000000000000000000000000000000)
 (.leaf 108269540500000000000000000000)))
 (.node 2 (.node 1 (.leaf 106447148900000000000000000000)
 (.leaf 1151082360023000000000000000000000000000000))
 (.node 1 (.leaf 791091900389000000000000000000000000000000)
 (.leaf 831096603659000000000000000000000000000000))))
 (.node 4 (.node 2 (.node 1 (.leaf 110398291300000000000000000000)
 (.leaf 11092158848000000000010921588480000000000))
 (.node 1 (.leaf 751081379603000000000000000000000000000000)
 (.leaf 621083750780000000000000000000000000000000)))
 (.node 2 (.node 1 (.leaf 11116202154000000000011162021540000000000)
 (.leaf 531085667456000000000000000000000000000000))
 (.node 1 (.leaf 551096996813000000000000000000000000000000)
 (.leaf 371060338248000000000000000000000000000000)))))
 (.node 8 (.node 4 (.node 2 (.node 1 (.leaf 111282164900000000000000000000)
 (.leaf 1121061848384000000000000000000000000000000))
 (.node 1 (.leaf 110940546700000000000000000000)
 (.leaf 861086962899000000000000000000001072239601)))
 (.node 2 (.node 1 (.leaf 107483637000000000000000000000)
 (.leaf 109962875400000000000000000000))
 (.node 1 (.leaf 841096119798000000000000000000000000000000)
 (.leaf 7210626079500831090680519000000000000000000000000000000))))
 (.node 4 (.node 2 (.node 1 (.leaf 109368018200000000000000000000)
 (.leaf 102332272000000000000000000000))
 (.node 1 (.leaf 11108468949000000000011084689490000000000)
 (.leaf 751089748650000000000000000000000000000000)))
 (.node 2 (.node 1 (.leaf 551085851105000000000000000000000000000000)
 (.leaf 11084210525000000000010842105250000000000))
 (.node 1 (.leaf 531031850428000000000000000000001036697748)
 (.leaf 551098353268000000000000000000000000000000)))))))
 (.node 32 (.node 16 (.node 8 (.node 4 (.node 2 (.node 1 (.leaf 371072177222000000000000000000000000000000)
 (.leaf 111911501800000000000000000000))
 (.node 1 (.leaf 1151063850582000000000000000000000000000000)
 (.leaf 110210701100000000000000000000)))
 (.node 2 (.node 1 (.leaf 110485999500000000000000000000)
 (.leaf 841079477280000000000000000000000000000000))
 (.node 1 (.leaf 1059139496)
 (.leaf 911060630752000000000000000000000000000000))))
 (.node 4 (.node 2 (.node 1 (.leaf 1028470977)
 (.leaf 111815148200000000000000000000))
 (.node 1 (.leaf 11099655118000000000010996551180000000000)
 (.leaf 751098367394000000000000000000000000000000)))
 (.node 2 (.node 1 (.leaf 551100047035000000000000000000000000000000)
 (.leaf 108400232900000000000000000000))
 (.node 1 (.leaf 641043305814000000000000000000000000000000)
 (.leaf 551086686228000000000000000000000000000000)))))
 (.node 8 (.node 4 (.node 2 (.node 1 (.leaf 311056088612000000000000000000000000000000)
 (.leaf 1151065568679000000000000000000000000000000))
 (.node 1 (.leaf 111641657300000000000000000000)
 (.leaf 109394882700000000000000000000)))
 (.node 2 (.node 1 (.leaf 841108378877000000000000000000000000000000)
 (.leaf 741083912967000000000000000000000000000000))
 (.node 1 (.leaf 112035198400000000000000000000)
 (.leaf 107709173100000000000000000000))))
 (.node 4 (.node 2 (.node 1 (.leaf 11100602088000000000011006020880000000000)
 (.leaf 751101272852000000000000000000000000000000))
 (.node 1 (.leaf 551107611659000000000000000000000000000000)
 (.leaf 641086896756000000000000000000000000000000)))
 (.node 2 (.node 1 (.leaf 661056873028000000000000000000000000000000)
 (.leaf 551074108200000000000000000000000000000000))
 (.node 1 (.leaf 311045446365000000000000000000000000000000)
 (.leaf 111972118700000000000000000000))))))
 (.node 16 (.node 8 (.node 4 (.node 2 (.node 1 (.leaf 681074199117000000000000000000000000000000)
 (.leaf 531094644384000000000000000000000000000000))
 (.node 1 (.leaf 1161057458244000000000000000000000000000000)
 (.leaf 841097309788000000000000000000000000000000)))
 (.node 2 (.node 1 (.leaf 861094849486000000000000000000000000000000)
 (.leaf 741099277564000000000000000000000000000000))
 (.node 1 (.leaf 111860088800000000000000000000)
 (.leaf 109613804400000000000000000000))))
 (.node 4 (.node 2 (.node 1 (.leaf 109339580800000000000000000000)
 (.leaf 11109212320102820225911092123200000000000))
 (.node 1 (.leaf 751085992925000000000000000000000000000000)
 (.leaf 107043788700000000000000000000)))
 (.node 2 (.node 1 (.leaf 641103765005000000000000000000000000000000)
 (.leaf 1034774729))
 (.node 1 (.leaf 661085217887000000000000000000000000000000)
 (.leaf 721066011693000000000000000000000000000000)))))
 (.node 8 (.node 4 (.node 2 (.node 1 (.leaf 106851874100000000000000000000)
 (.leaf 1001067244942000000000000000000000000000000))
 (.node 1 (.leaf 461068454322000000000000000000000000000000)
 (.leaf 108009770500000000000000000000)))
 (.node 2 (.node 1 (.leaf 861083250441000000000000000000000000000000)
 (.leaf 741100454917000000000000000000000000000000))
 (.node 1 (.leaf 401100456195000000000000000000000000000000)
 (.leaf 112040345600000000000000000000))))
 (.node 4 (.node 2 (.node 1 (.leaf 111701506100000000000000000000)
 (.leaf 105196691000000000000000000000))
 (.node 1 (.leaf 106672945100000000000000000000)
 (.leaf 109879419200000000000000000000)))
 (.node 2 (.node 1 (.leaf 641099590830000000000000000000000000000000)
 (.leaf 11083891445105992095510838914450000000000))
 (.node 1 (.leaf 1007086597)
 (.leaf 661090206433000000000000000000000000000000))))))))
 (.node 64 (.node 32 (.node 16 (.node 8 (.node 4 (.node 2 (.node 1 (.leaf 721078816834000000000000000000001011670145)
 (.leaf 108354385000000000000000000000))
 (.node 1 (.leaf 1012753569)
 (.leaf 1024484209)))
 (.node 2 (.node 1 (.leaf 107181991000000000000000000000)
 (.leaf 8610909021520941091315500000000000000000000001056342434))
 (.node 1 (.leaf 741104666178000000000000000000000000000000)
 (.leaf 401093888111000000000000000000000000000000))))
 (.node 4 (.node 2 (.node 1 (.leaf 112040345600000000000000000000)
 (.leaf 109471313400000000000000000000))
 (.node 1 (.leaf 641091328089000000000000000000000000000000)
 (.leaf 11115732353109715432411157323530000000000)))
 (.node 2 (.node 1 (.leaf 661092764270000000000000000000000000000000)
 (.leaf 7210431458670841075701208000000000000000000000000000000))
 (.node 1 (.leaf 111834748700000000000000000000)
 (.leaf 109361317800000000000000000000)))))
 (.node 8 (.node 4 (.node 2 (.node 1 (.leaf 1049047720)
 (.leaf 941068269540000000000000000000000000000000))
 (.node 1 (.leaf 741068141524000000000000000000000000000000)
 (.leaf 941103112864000000000000000000000000000000)))
 (.node 2 (.node 1 (.leaf 104096907600000000000000000000)
 (.leaf 551082766107000000000000000000000000000000))
 (.node 1 (.leaf 641090944527000000000000000000000000000000)
 (.leaf 11107833035000000000011078330350000000000))))
 (.node 4 (.node 2 (.node 1 (.leaf 109215674800000000000000000000)
 (.leaf 661081231697000000000000000000000000000000))
 (.node 1 (.leaf 841064891904000000000000000000000000000000)
 (.leaf 111111092300000000000000000000)))
 (.node 2 (.node 1 (.leaf 111622337300000000000000000000)
 (.leaf 109115694100000000000000000000))
 (.node 1 (.leaf 1037170732)
 (.leaf 1201071018411000000000000000000000000000000))))))
 (.node 16 (.node 8 (.node 4 (.node 2 (.node 1 (.leaf 941092217893000000000000000000000000000000)
 (.leaf 551083748851000000000000000000000000000000))
 (.node 1 (.leaf 641092259138000000000000000000000000000000)
 (.leaf 11091480004110652051910914800040000000000)))
 (.node 2 (.node 1 (.leaf 111188149500000000000000000000)
 (.leaf 661098896247000000000000000000000000000000))
 (.node 1 (.leaf 1044864340)
 (.leaf 111515203000000000000000000000))))
 (.node 4 (.node 2 (.node 1 (.leaf 107438388800000000000000000000)
 (.leaf 112040345600000000000000000000))
 (.node 1 (.leaf 641103287769000000000000000000000000000000)
 (.leaf 551111433796000000000000000000000000000000)))
 (.node 2 (.node 1 (.leaf 111924230200000000000000000000)
 (.leaf 111993293400000000000000000000))
 (.node 1 (.leaf 6310724112190661078515862000000000000000000000000000000)
 (.leaf 11112995070106771100211129950701008503499)))))
 (.node 8 (.node 4 (.node 2 (.node 1 (.leaf 112040345600000000000000000000)
 (.leaf 109312013800000000000000000000))
 (.node 1 (.leaf 641104662189000000000000000000000000000000)
 (.leaf 551109737621000000000000000000000000000000)))
 (.node 2 (.node 1 (.leaf 631090641562000000000000000000000000000000)
 (.leaf 11117296984000000000011172969840000000000))
 (.node 1 (.leaf 109592214200000000000000000000)
 (.leaf 1141034332282000000000000000000000000000000))))
 (.node 4 (.node 2 (.node 1 (.leaf 112028998700000000000000000000)
 (.leaf 112040345600000000000000000000))
 (.node 1 (.leaf 6411036864620771105045814000000000000000000000000000000)
 (.leaf 551103085149000000000000000000000000000000)))
 (.node 2 (.node 1 (.leaf 110395853400000000000000000000)
 (.leaf 541085900061000000000000000000000000000000))
 (.node 1 (.leaf 11119081376000000000011190813760000000000)
 (.leaf 1141054136575000000000000000000001008092917)))))))
 (.node 32 (.node 16 (.node 8 (.node 4 (.node 2 (.node 1 (.leaf 111961948800000000000000000000)
 (.leaf 771084869970000000000000000000000000000000))
 (.node 1 (.leaf 11103817045108754127311038170450000000000)
 (.leaf 551102801947000000000000000000000000000000)))
 (.node 2 (.node 1 (.leaf 541078896325000000000000000000000000000000)
 (.leaf 1141068238235000000000000000000000000000000))
 (.node 1 (.leaf 112035575900000000000000000000)
 (.leaf 11120191396000000000011201913960000000000))))
 (.node 4 (.node 2 (.node 1 (.leaf 771094993150000000000000000000000000000000)
 (.leaf 11084547140000000000010845471400000000000))
 (.node 1 (.leaf 551100776671000000000000000000000000000000)
 (.leaf 11118312728000000000011183127280000000000)))
 (.node 2 (.node 1 (.leaf 541084254356000000000000000000000000000000)
 (.leaf 1141064342454000000000000000000001048770591))
 (.node 1 (.leaf 112040345600000000000000000000)
 (.leaf 771077075067000000000000000000000000000000)))))
 (.node 8 (.node 4 (.node 2 (.node 1 (.leaf 11094241185109387710510942411850000000000)
 (.leaf 1141065866162000000000000000000001023835457))
 (.node 1 (.leaf 301057272553000000000000000000000000000000)
 (.leaf 112040345600000000000000000000)))
 (.node 2 (.node 1 (.leaf 11120200018000000000011202000180000000000)
 (.leaf 771100052680000000000000000000000000000000))
 (.node 1 (.leaf 110896296290601090590992108316801910896296290000000000)
 (.leaf 11105051219000000000011050512190000000000))))
 (.node 4 (.node 2 (.node 1 (.leaf 581080437952000000000000000000000000000000)
 (.leaf 1141070723819000000000000000000000000000000))
 (.node 1 (.leaf 301077131146000000000000000000000000000000)
 (.leaf 112040345600000000000000000000)))
 (.node 2 (.node 1 (.leaf 111826624800000000000000000000)
 (.leaf 771082559113000000000000000000000000000000))
 (.node 1 (.leaf 601073792885100919995500000000000000000000)
 (.leaf 551051330261000000000000000000000000000000))))))
 (.node 16 (.node 8 (.node 4 (.node 2 (.node 1 (.leaf 11084841641000000000010848416410000000000)
 (.leaf 581041278149000000000000000000000000000000))
 (.node 1 (.leaf 107452490100000000000000000000)
 (.leaf 1012220543)))
 (.node 2 (.node 1 (.leaf 111211443700000000000000000000)
 (.leaf 771097031569000000000000000000000000000000))
 (.node 1 (.leaf 601080040544000000000000000000000000000000)
 (.leaf 551099990406000000000000000000000000000000))))
 (.node 4 (.node 2 (.node 1 (.leaf 108605439200000000000000000000)
 (.leaf 581079299784000000000000000000001051108580))
 (.node 1 (.leaf 1072939308)
 (.leaf 109044599600000000000000000000)))
 (.node 2 (.node 1 (.leaf 1008630078)
 (.leaf 681083189579000000000000000000000000000000))
 (.node 1 (.leaf 110594343600000000000000000000)
 (.leaf 7710320356481131085358141000000000000000000000000000000)))))
 (.node 8 (.node 4 (.node 2 (.node 1 (.leaf 6010558093950791070668490106665529600000000000000000000)
 (.leaf 5510490378530671082557530000000000000000000000000000000))
 (.node 1 (.leaf 99438794400000000000000000000)
 (.leaf 581074342978104886678300000000001037755843)))
 (.node 2 (.node 1 (.leaf 1101077729441000000000000000000000000000000)
 (.leaf 371052031725000000000000000000000000000000))
 (.node 1 (.leaf 681101928818000000000000000000000000000000)
 (.leaf 109831321000000000000000000000))))
 (.node 4 (.node 2 (.node 1 (.leaf 1131092344550000000000000000000000000000000)
 (.leaf 6010196603670791098250053107009101800000000000000000000))
 (.node 1 (.leaf 671101792673000000000000000000000000000000)
 (.leaf 109360720100000000000000000000)))
 (.node 2 (.node 1 (.leaf 371081946325000000000000000000000000000000)
 (.leaf 6810766335740841083190169000000000000000000000000000000))
 (.node 1 (.leaf 108821638800000000000000000000)
 (.leaf 1131095765969000000000000000000000000000000))))))))))
 (.node 128 (.node 64 (.node 32 (.node 16 (.node 8 (.node 4 (.node 2 (.node 1 (.leaf 791075136138000000000000000000000000000000)
 (.leaf 671097689795000000000000000000000000000000))
 (.node 1 (.leaf 106844727000000000000000000000)
 (.leaf 1031085284707000000000000000000001033856214)))
 (.node 2 (.node 1 (.leaf 371091563246000000000000000000000000000000)
 (.leaf 841088824333000000000000000000000000000000))
 (.node 1 (.leaf 109957296900000000000000000000)
 (.leaf 1131093358574000000000000000000000000000000))))
 (.node 4 (.node 2 (.node 1 (.leaf 701091726080000000000000000000000000000000)
 (.leaf 671091118633000000000000000000000000000000))
 (.node 1 (.leaf 105848643600000000000000000000)
 (.leaf 5710642201211031095530866000000000000000000000000000000)))
 (.node 2 (.node 1 (.leaf 371095633246000000000000000000000000000000)
 (.leaf 108340359200000000000000000000))
 (.node 1 (.leaf 107364166400000000000000000000)
 (.leaf 106211207600000000000000000000)))))
 (.node 8 (.node 4 (.node 2 (.node 1 (.leaf 106752167100000000000000000000)
 (.leaf 1131093324970000000000000000000000000000000))
 (.node 1 (.leaf 701090124962000000000000000000001057549588)
 (.leaf 1024262255)))
 (.node 2 (.node 1 (.leaf 1031085568646000000000000000000000000000000)
 (.leaf 371084262733000000000000000000000000000000))
 (.node 1 (.leaf 108241705000000000000000000000)
 (.leaf 108985269100000000000000000000))))
 (.node 4 (.node 2 (.node 1 (.leaf 1131099711366000000000000000000000000000000)
 (.leaf 1076753789))
 (.node 1 (.leaf 581075200560000000000000000000000000000000)
 (.leaf 108375396300000000000000000000)))
 (.node 2 (.node 1 (.leaf 109028246000000000000000000000)
 (.leaf 991066503178000000000000000000001040246291))
 (.node 1 (.leaf 1031080826079000000000000000000000000000000)
 (.leaf 1131091057803000000000000000000000000000000))))))
 (.node 16 (.node 8 (.node 4 (.node 2 (.node 1 (.leaf 581097514382000000000000000000000000000000)
 (.leaf 109856707100000000000000000000))
 (.node 1 (.leaf 104938311800000000000000000000)
 (.leaf 1049989887)))
 (.node 2 (.node 1 (.leaf 1031085699662000000000000000000001036925570)
 (.leaf 1131084369490000000000000000000000000000000))
 (.node 1 (.leaf 581100460412000000000000000000000000000000)
 (.leaf 1063557328))))
 (.node 4 (.node 2 (.node 1 (.leaf 1031083272598000000000000000000000000000000)
 (.leaf 1131087514866000000000000000000000000000000))
 (.node 1 (.leaf 581101241214000000000000000000000000000000)
 (.leaf 1047850632)))
 (.node 2 (.node 1 (.leaf 1046402472)
 (.leaf 1031087072791000000000000000000001019322982))
 (.node 1 (.leaf 109004843900000000000000000000)
 (.leaf 1131091719654000000000000000000000000000000)))))
 (.node 8 (.node 4 (.node 2 (.node 1 (.leaf 581100981956000000000000000000000000000000)
 (.leaf 1031080225564000000000000000000001044265870))
 (.node 1 (.leaf 581099434709000000000000000000000000000000)
 (.leaf 1031083406794000000000000000000000000000000)))
 (.node 2 (.node 1 (.leaf 581095264864000000000000000000000000000000)
 (.leaf 1031082672999000000000000000000000000000000))
 (.node 1 (.leaf 109129380100000000000000000000)
 (.leaf 107428083400000000000000000000))))
 (.node 4 (.node 2 (.node 1 (.leaf 581088181630000000000000000000000000000000)
 (.leaf 1031067046223000000000000000000000000000000))
 (.node 1 (.leaf 104922366800000000000000000000)
 (.leaf 108240505400000000000000000000)))
 (.node 2 (.node 1 (.leaf 8609824264601031081434539000000000000000000000000000000)
 (.leaf 108693100200000000000000000000))
 (.node 1 (.leaf 601074871976000000000000000000000000000000)
 (.leaf 86108213514210010822004611031082478459000000000000000000001024861007)))))))
 (.node 32 (.node 16 (.node 8 (.node 4 (.node 2 (.node 1 (.leaf 109330080700000000000000000000)
 (.leaf 601078404399000000000000000000000000000000))
 (.node 1 (.leaf 1042306476)
 (.leaf 107843709600000000000000000000)))
 (.node 2 (.node 1 (.leaf 107522782400000000000000000000)
 (.leaf 601074653081000000000000000000000000000000))
 (.node 1 (.leaf 108300945300000000001032839958)
 (.leaf 1091069485118000000000000000000000000000000))))
 (.node 4 (.node 2 (.node 1 (.leaf 1111046278659000000000000000000000000000000)
 (.leaf 108128209200000000000000000000))
 (.node 1 (.leaf 601066870342000000000000000000000000000000)
 (.leaf 1056987666)))
 (.node 2 (.node 1 (.leaf 1091101717598000000000000000000000000000000)
 (.leaf 108710445700000000000000000000))
 (.node 1 (.leaf 1021056256517000000000000000000000000000000)
 (.leaf 1091060193209000000000000000000000000000000)))))
 (.node 8 (.node 4 (.node 2 (.node 1 (.leaf 1015658302)
 (.leaf 1021053157996000000000000000000001013863404))
 (.node 1 (.leaf 109132801600000000000000000000)
 (.leaf 107616667700000000000000000000)))
 (.node 2 (.node 1 (.leaf 1051915268)
 (.leaf 107629133200000000000000000000))
 (.node 1 (.leaf 109662007500000000000000000000)
 (.leaf 107912311600000000000000000000))))
 (.node 4 (.node 2 (.node 1 (.leaf 1016852191)
 (.leaf 109254697500000000000000000000))
 (.node 1 (.leaf 107515530400000000000000000000)
 (.leaf 109105645600000000000000000000)))
 (.node 2 (.node 1 (.leaf 1032933418)
 (.leaf 741062419616000000000000000000001053910108))
 (.node 1 (.leaf 105609642100000000000000000000)
 (.leaf 104369664900000000000000000000))))))
 (.node 16 (.node 8 (.node 4 (.node 2 (.node 1 (.leaf 107538297100000000000000000000)
 (.leaf 109111193600000000000000000000))
 (.node 1 (.leaf 109155283100000000000000000000)
 (.leaf 109392261300000000000000000000)))
 (.node 2 (.node 1 (.leaf 107587005600000000000000000000)
 (.leaf 1029109442))
 (.node 1 (.leaf 109193521500000000000000000000)
 (.leaf 109511201300000000000000000000))))
 (.node 4 (.node 2 (.node 1 (.leaf 1025295887)
 (.leaf 106624802900000000000000000000))
 (.node 1 (.leaf 108151995100000000000000000000)
 (.leaf 109589393600000000000000000000)))
 (.node 2 (.node 1 (.leaf 109302807300000000000000000000)
 (.leaf 1060282796))
 (.node 1 (.leaf 108110861600000000000000000000)
 (.leaf 108327115700000000000000000000)))))
 (.node 8 (.node 4 (.node 2 (.node 1 (.leaf 106899647200000000000000000000)
 (.leaf 108716164600000000000000000000))
 (.node 1 (.leaf 109524486700000000000000000000)
 (.leaf 103626627500000000000000000000)))
 (.node 2 (.node 1 (.leaf 110411372300000000000000000000)
 (.leaf 108441198700000000000000000000))
 (.node 1 (.leaf 110194857100000000000000000000)
 (.leaf 109874616700000000000000000000))))
 (.node 4 (.node 2 (.node 1 (.leaf 761059206626109625401700000000001011749163)
 (.leaf 701095695565000000000000000000000000000000))
 (.node 1 (.leaf 108442299700000000000000000000)
 (.leaf 109033839100000000000000000000)))
 (.node 2 (.node 1 (.leaf 1051874378)
 (.leaf 108493627500000000000000000000))
 (.node 1 (.leaf 701092996382000000000000000000000000000000)
 (.leaf 103963199900000000000000000000))))))))
 (.node 16 (.node 8 (.node 4 (.node 2 (.node 1 (.leaf 701102260074000000000000000000000000000000)
 (.leaf 1055297224))
 (.node 1 (.leaf 108872503100000000000000000000)
 (.leaf 701101242902000000000000000000000000000000)))
 (.node 2 (.node 1 (.leaf 98473799000000000000000000000)
 (.leaf 701100000393000000000000000000000000000000))
 (.node 1 (.leaf 108176104000000000000000000000)
 (.leaf 108330045400000000000000000000))))
 (.node 4 (.node 2 (.node 1 (.leaf 701098975086000000000000000000000000000000)
 (.leaf 701111180083000000000000000000000000000000))
 (.node 1 (.leaf 109094795000000000000000000000)
 (.leaf 701108263579000000000000000000001031467971)))
 (.node 2 (.node 1 (.leaf 1046603049)
 (.leaf 1047346911))
 (.node 1 (.leaf 1054856832)
 (.leaf 1020185165)))))
 (.leaf 106794286300000000000000000000))))))

end WG
